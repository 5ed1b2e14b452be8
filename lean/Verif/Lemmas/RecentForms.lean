import Verif.Model.Regexps
import Verif.Lemmas.Regex

/-
Patterns made of optional words of two letters: what they match.
-/

namespace Verif

/-- A word of two letters. -/
abbrev Word2 := Nat × Nat

def Word2.text (w : Word2) : PyStr := [w.1, w.2]

def Word2.re (w : Word2) : RE := .seq (.chr (CC.one w.1)) (.chr (CC.one w.2))

/-- One of the words. -/
def wordsRE : Word2 → List Word2 → RE
  | w, [] => Word2.re w
  | w, v :: ws => .alt (Word2.re w) (wordsRE v ws)

/-- A capture and the words it may hold, at least one. -/
structure WordSlot where
  cap : Cap
  head : Word2
  tail : List Word2

def WordSlot.words (s : WordSlot) : List Word2 := s.head :: s.tail

/-- The optional words in order, up to the end. -/
def slotsRE : List WordSlot → RE
  | [] => .eos
  | s :: ss => .seq (.opt (.grp s.cap (wordsRE s.head s.tail))) (slotsRE ss)

/-- A choice of a word, or none, for each slot. -/
def Picks : List WordSlot → List (Option Word2) → Prop
  | [], [] => True
  | s :: ss, o :: os => (∀ w, o = some w → w ∈ s.words) ∧ Picks ss os
  | _, _ => False

def picksText : List (Option Word2) → PyStr
  | [] => []
  | none :: os => picksText os
  | some w :: os => w.1 :: w.2 :: picksText os

/-- The captures after the choice, from position `p`. -/
def picksCaps : List WordSlot → List (Option Word2) → Nat → Caps → Caps
  | s :: ss, some _ :: os, p, cs => picksCaps ss os (p + 2) ((s.cap, p, p + 2) :: cs)
  | _ :: ss, none :: os, p, cs => picksCaps ss os p cs
  | _, _, _, cs => cs

/-- The words of different slots are different. -/
def slotsApart : List WordSlot → Bool
  | [] => true
  | s :: ss => (ss.all fun s' => s'.words.all fun w => !s.words.contains w) && slotsApart ss

theorem word_m (w : Word2) (s : PyStr) (p : Nat) (cs : Caps) : RE.m s (Word2.re w) (p, cs) =
    if s[p]? = some w.1 ∧ s[p + 1]? = some w.2 then [(p + 2, cs)] else [] := by
  unfold Word2.re
  simp only [RE.m]
  cases h1 : s[p]? with
  | none => simp
  | some c =>
    simp only
    by_cases hc : c = w.1
    · rw [if_pos (CC.mem_one.2 hc)]
      simp only [List.flatMap_cons, List.flatMap_nil, List.append_nil]
      cases h2 : s[p + 1]? with
      | none => simp
      | some d =>
        by_cases hd : d = w.2
        · simp only
          rw [if_pos (CC.mem_one.2 hd), if_pos ⟨by rw [hc], by rw [hd]⟩]
        · simp only
          rw [if_neg (fun e => hd (CC.mem_one.1 e)), if_neg]
          intro e
          exact hd (Option.some.inj e.2)
    · rw [if_neg (fun e => hc (CC.mem_one.1 e)), if_neg]
      · rfl
      · intro e
        exact hc (Option.some.inj e.1)

/-- Every match of a word ends two letters later. -/
theorem wordsRE_mem {w : Word2} {ws : List Word2} {s : PyStr} {p : Nat} {cs : Caps} {st : St} :
    st ∈ RE.m s (wordsRE w ws) (p, cs) ↔
      st = (p + 2, cs) ∧ ∃ v ∈ w :: ws, s[p]? = some v.1 ∧ s[p + 1]? = some v.2 := by
  induction ws generalizing w with
  | nil =>
    unfold wordsRE
    rw [word_m]
    split
    · next h => simp [h]
    · next h =>
      simp only [List.not_mem_nil, List.mem_singleton, false_iff]
      rintro ⟨-, v, rfl, hv⟩
      exact h hv
  | cons v ws ih =>
    unfold wordsRE
    rw [show RE.m s (.alt (Word2.re w) (wordsRE v ws)) (p, cs) =
      RE.m s (Word2.re w) (p, cs) ++ RE.m s (wordsRE v ws) (p, cs) from rfl, List.mem_append, ih,
      word_m]
    constructor
    · rintro (h | ⟨h1, x, h2, h3⟩)
      · split at h
        · next hw => exact ⟨by simpa using h, w, by simp, hw⟩
        · cases h
      · exact ⟨h1, x, List.mem_cons_of_mem _ h2, h3⟩
    · rintro ⟨h1, x, h2, h3⟩
      rcases List.mem_cons.1 h2 with rfl | h2
      · rw [if_pos h3]
        exact .inl (by simp [h1])
      · exact .inr ⟨h1, x, h2, h3⟩

theorem head_flatMap {α β : Type} {l : List α} {K : α → List β} {x : α} {y : β}
    (hx : ∀ a ∈ l, a = x) (hne : l ≠ []) (hy : (K x).head? = some y) :
    (l.flatMap K).head? = some y := by
  cases l with
  | nil => exact absurd rfl hne
  | cons a l =>
    rw [hx a (by simp), List.flatMap_cons, List.head?_append, hy]
    rfl

theorem head_append {α : Type} {l l' : List α} {y : α} (h : l.head? = some y) :
    (l ++ l').head? = some y := by
  rw [List.head?_append, h]; rfl

/-- The first two letters of a choice are a word of one of the slots. -/
theorem picksText_begin {ss : List WordSlot} {os : List (Option Word2)} (h : Picks ss os) :
    picksText os = [] ∨ ∃ s ∈ ss, ∃ w ∈ s.words, ∃ t, picksText os = w.1 :: w.2 :: t := by
  induction ss generalizing os with
  | nil =>
    cases os with
    | nil => exact .inl rfl
    | cons o os => exact h.elim
  | cons s ss ih =>
    cases os with
    | nil => exact h.elim
    | cons o os =>
      obtain ⟨h1, h2⟩ := h
      cases o with
      | some w => exact .inr ⟨s, by simp, w, h1 w rfl, _, rfl⟩
      | none =>
        rcases ih h2 with h | ⟨s', hs', w, hw, t, ht⟩
        · exact .inl h
        · exact .inr ⟨s', List.mem_cons_of_mem _ hs', w, hw, t, ht⟩

theorem drop_get_zero {α : Type} {l t : List α} {p : Nat} {a : α} (h : l.drop p = a :: t) :
    l[p]? = some a := (drop_cons_get h).1

/-- A choice is matched, and the captures are the chosen words. -/
theorem slotsRE_match {ss : List WordSlot} {os : List (Option Word2)} (ha : slotsApart ss = true)
    (h : Picks ss os) {s : PyStr} {p : Nat} (cs : Caps) (hp : p ≤ s.length)
    (ht : s.drop p = picksText os) :
    (RE.m s (slotsRE ss) (p, cs)).head? = some (s.length, picksCaps ss os p cs) := by
  induction ss generalizing os p cs with
  | nil =>
    cases os with
    | cons o os => exact h.elim
    | nil =>
      have : p = s.length := by
        have := congrArg List.length ht
        simp only [List.length_drop, picksText, List.length_nil] at this
        omega
      subst this
      simp [slotsRE, RE.m, atEnd, picksCaps]
  | cons x ss ih =>
    cases os with
    | nil => exact h.elim
    | cons o os =>
      obtain ⟨h1, h2⟩ := h
      unfold slotsApart at ha
      rw [Bool.and_eq_true] at ha
      unfold slotsRE
      simp only [RE.m, List.flatMap_append]
      cases o with
      | some w =>
        obtain ⟨e1, e2, e3⟩ := drop_cons_get ht
        obtain ⟨e4, e5, e6⟩ := drop_cons_get e2.symm
        refine head_append ?_
        rw [List.flatMap_map]
        refine head_flatMap (x := (p + 2, cs)) (fun a hm => (wordsRE_mem.1 hm).1) ?_
          (ih ha.2 h2 _ e6 e5.symm)
        intro hn
        have : (p + 2, cs) ∈ RE.m s (wordsRE x.head x.tail) (p, cs) :=
          wordsRE_mem.2 ⟨rfl, w, h1 w rfl, e1, e4⟩
        rw [hn] at this
        cases this
      | none =>
        have : RE.m s (wordsRE x.head x.tail) (p, cs) = [] := by
          rw [List.eq_nil_iff_forall_not_mem]
          intro st hst
          obtain ⟨-, v, hv, e1, e2⟩ := wordsRE_mem.1 hst
          rcases picksText_begin h2 with hb | ⟨s', hs', w, hw, t, hb⟩
          · rw [picksText, hb] at ht
            rw [drop_nil_get ht] at e1
            cases e1
          · rw [picksText, hb] at ht
            obtain ⟨f1, f2, -⟩ := drop_cons_get ht
            obtain ⟨f3, -, -⟩ := drop_cons_get f2.symm
            rw [f1] at e1
            rw [f3] at e2
            have : w = v := Prod.ext (Option.some.inj e1) (Option.some.inj e2)
            subst this
            have := List.all_eq_true.1 (List.all_eq_true.1 ha.1 s' hs') w hw
            simp only [Bool.not_eq_true', List.contains_eq_mem, decide_eq_false_iff_not] at this
            exact this hv
        rw [this]
        simp only [List.map_nil, List.flatMap_nil, List.nil_append, List.flatMap_cons,
          List.append_nil]
        exact ih ha.2 h2 cs hp ht

/-- Only choices are matched. -/
theorem slotsRE_only {ss : List WordSlot} {s : PyStr} (hn : 10 ∉ s) {p : Nat} {cs : Caps}
    (hp : p ≤ s.length) {st : St} (h : st ∈ RE.m s (slotsRE ss) (p, cs)) :
    ∃ os, Picks ss os ∧ s.drop p = picksText os := by
  induction ss generalizing p cs with
  | nil =>
    refine ⟨[], trivial, ?_⟩
    unfold slotsRE at h
    simp only [RE.m] at h
    split at h
    · next he =>
      unfold atEnd at he
      simp only [Bool.or_eq_true, beq_iff_eq, Bool.and_eq_true] at he
      rcases he with rfl | ⟨-, he⟩
      · simp [picksText]
      · exact absurd (List.mem_of_getElem? he) hn
    · cases h
  | cons x ss ih =>
    unfold slotsRE at h
    simp only [RE.m, List.mem_flatMap, List.mem_append, List.mem_map, List.mem_singleton] at h
    obtain ⟨a, ⟨b, hb, rfl⟩ | rfl, h⟩ := h
    · obtain ⟨rfl, v, hv, e1, e2⟩ := wordsRE_mem.1 hb
      obtain ⟨l1, g1⟩ := List.getElem?_eq_some_iff.1 e1
      obtain ⟨l2, g2⟩ := List.getElem?_eq_some_iff.1 e2
      obtain ⟨os, h1, h2⟩ := ih (p := p + 2) (by omega) h
      refine ⟨some v :: os, ⟨fun w hw => by cases hw; exact hv, h1⟩, ?_⟩
      rw [List.drop_eq_getElem_cons l1, List.drop_eq_getElem_cons l2, g1, g2, h2]
      rfl
    · obtain ⟨os, h1, h2⟩ := ih hp h
      exact ⟨none :: os, ⟨by simp, h1⟩, h2⟩

/-- The slots of the recent weather pattern. -/
def recentSlots : List WordSlot :=
  [⟨.desc, (77, 73), [(80, 82), (66, 67), (68, 82), (66, 76), (83, 72), (84, 83), (70, 90)]⟩,
   ⟨.prec, (68, 90), [(82, 65), (83, 78), (83, 71), (73, 67), (80, 76), (71, 82), (71, 83), (85, 80)]⟩,
   ⟨.obsc, (66, 82), [(70, 71), (86, 65), (68, 85), (83, 65), (72, 90), (80, 89)]⟩,
   ⟨.other, (80, 79), [(83, 81), (70, 67), (83, 83), (68, 83)]⟩]

theorem recent_pattern : MetarRegExp.RECENT_WEATHER =
    .seq .bos (.seq (.chr (CC.one 82)) (.seq (.chr (CC.one 69)) (slotsRE recentSlots))) := by
  decide +kernel

theorem recent_apart : slotsApart recentSlots = true := by decide +kernel

theorem recent_match {os : List (Option Word2)} (h : Picks recentSlots os) :
    MetarRegExp.RECENT_WEATHER.match (py!"RE" ++ picksText os) =
      some ⟨py!"RE" ++ picksText os, (py!"RE" ++ picksText os).length,
        picksCaps recentSlots os 2 []⟩ := by
  have := slotsRE_match recent_apart h (s := py!"RE" ++ picksText os) (p := 2) [] (by simp) (by simp)
  rw [recent_pattern]
  unfold RE.match
  have e : RE.m (py!"RE" ++ picksText os) (.seq .bos (.seq (.chr (CC.one 82))
      (.seq (.chr (CC.one 69)) (slotsRE recentSlots)))) (0, []) =
      RE.m (py!"RE" ++ picksText os) (slotsRE recentSlots) (2, []) := by
    simp [RE.m, CC.mem_one.2]
  rw [e, this]
  rfl

theorem recent_only {s : PyStr} {m : Match} (h : MetarRegExp.RECENT_WEATHER.match s = some m)
    (hn : 10 ∉ s) : ∃ os, Picks recentSlots os ∧ s = py!"RE" ++ picksText os := by
  rw [recent_pattern] at h
  unfold RE.match at h
  rw [Option.map_eq_some_iff] at h
  obtain ⟨st, hm, -⟩ := h
  · have hst : st ∈ RE.m s (.seq .bos (.seq (.chr (CC.one 82)) (.seq (.chr (CC.one 69))
      (slotsRE recentSlots)))) (0, []) := List.mem_of_head? hm
    simp only [RE.m, if_true, List.flatMap_cons, List.flatMap_nil, List.append_nil,
      List.mem_flatMap] at hst
    cases s with
    | nil => simp at hst
    | cons c s =>
      cases s with
      | nil =>
        obtain ⟨a, ha, b, hb, hst⟩ := hst
        simp only [List.getElem?_cons_zero] at ha
        split at ha
        · simp only [List.mem_singleton] at ha
          subst ha
          simp at hb
        · cases ha
      | cons d s =>
        obtain ⟨a, ha, b, hb, hst⟩ := hst
        simp only [List.getElem?_cons_zero] at ha
        split at ha
        · next hc =>
          simp only [List.mem_singleton] at ha
          subst ha
          simp only [Nat.zero_add, List.getElem?_cons_succ, List.getElem?_cons_zero] at hb
          split at hb
          · next hd =>
            simp only [List.mem_singleton] at hb
            subst hb
            obtain ⟨os, h1, h2⟩ := slotsRE_only hn (by simp) hst
            refine ⟨os, h1, ?_⟩
            rw [CC.mem_one.1 hc, CC.mem_one.1 hd, ← h2]
            rfl
          · cases hb
        · cases ha

end Verif
