import Verif.Lemmas.Sub
import Verif.Model.Utils
import Verif.Spec.Sections

/-
`split_sentence` as a cutting of the text.
-/

namespace Verif
open Spec

/-! ### Literal patterns -/

theorem CC.mem_lit {c d : Nat} : (CC.set [(c, c)]).mem d = decide (d = c) := by
  have := CC.mem_one (c := c) (d := d)
  unfold CC.one at this
  rw [Bool.eq_iff_iff]
  simpa using this

theorem isPrefixOf_drop {c : Nat} {t s : PyStr} {p : Nat} :
    (c :: t).isPrefixOf (s.drop p) = (decide (s[p]? = some c) && t.isPrefixOf (s.drop (p + 1))) := by
  by_cases hp : p < s.length
  · rw [List.drop_eq_getElem_cons hp, List.getElem?_eq_getElem hp]
    simp only [List.isPrefixOf, Option.some.injEq]
    congr 1
    rw [Bool.eq_iff_iff]
    simp only [beq_iff_eq, decide_eq_true_eq]
    exact ⟨Eq.symm, Eq.symm⟩
  · rw [List.drop_eq_nil_of_le (by omega), List.getElem?_eq_none (by omega)]
    simp [List.isPrefixOf]

theorem RE.m_ofLit (s : PyStr) (lit : PyStr) (st : St) :
    RE.m s (RE.ofLit lit) st =
      if lit.isPrefixOf (s.drop st.1) then [(st.1 + lit.length, st.2)] else [] := by
  induction lit generalizing st with
  | nil => simp [RE.ofLit, RE.m]
  | cons c t ih =>
    have h1 : RE.m s (.chr (.set [(c, c)])) st =
        if s[st.1]? = some c then [(st.1 + 1, st.2)] else [] := by
      simp only [RE.m]
      cases h : s[st.1]? with
      | none => simp
      | some d => simp [CC.mem_lit]
    rw [isPrefixOf_drop]
    cases t with
    | nil =>
      simp only [RE.ofLit, h1]
      by_cases h : s[st.1]? = some c <;> simp [h]
    | cons d u =>
      simp only [RE.ofLit]
      rw [RE.m, h1]
      by_cases h : s[st.1]? = some c
      · simp only [h, if_true, List.flatMap_cons, List.flatMap_nil, List.append_nil, ih,
          decide_true, Bool.true_and, List.length_cons]
        split <;> simp <;> omega
      · simp [h]

theorem RE.match_ofLit (lit s : PyStr) :
    (RE.ofLit lit).match s = if lit.isPrefixOf s then some ⟨s, lit.length, []⟩ else none := by
  unfold RE.match
  rw [RE.m_ofLit]
  simp only [List.drop_zero, Nat.zero_add]
  split <;> rfl

/-! ### Cutting -/

/-- A keyword: no white space, no `|`. -/
def Plain (kw : PyStr) : Prop := kw ≠ [] ∧ ∀ c ∈ kw, isSpace c = false ∧ c ≠ 124

instance (kw : PyStr) : Decidable (Plain kw) := by unfold Plain; infer_instance

theorem Plain.no_blank {kw : PyStr} (h : Plain kw) : 32 ∉ kw := fun hx =>
  absurd (h.2 32 hx).1 (by decide)

theorem Plain.no_bar {kw : PyStr} (h : Plain kw) : 124 ∉ kw := fun hx => (h.2 124 hx).2 rfl

def opensB (kws : List PyStr) (t : PyStr) : Bool := kws.any fun kw => kw.isPrefixOf t

theorem opensB_iff {kws : List PyStr} {t : PyStr} : opensB kws t = true ↔ Opens kws t := by
  simp [opensB, Opens, List.isPrefixOf_iff_prefix]

/-- The text with every blank that is followed by a keyword replaced by `|`. -/
def cut (kws : List PyStr) : PyStr → PyStr
  | [] => []
  | c :: t => (if c = 32 ∧ opensB kws t = true then 124 else c) :: cut kws t

theorem cut_nil_kws (s : PyStr) : cut [] s = s := by
  induction s with
  | nil => rfl
  | cons c t ih => simp [cut, opensB, ih]

theorem cut_word {kws : List PyStr} {w s : PyStr} (h : 32 ∉ w) : cut kws (w ++ s) = w ++ cut kws s := by
  induction w with
  | nil => rfl
  | cons c t ih =>
    simp only [List.mem_cons, not_or] at h
    simp only [List.cons_append, cut, ih h.2]
    rw [if_neg]
    exact fun hc => h.1 hc.1.symm

theorem isPrefixOf_cut {kws : List PyStr} {kw : PyStr} (h1 : 32 ∉ kw) (h2 : 124 ∉ kw) (t : PyStr) :
    kw.isPrefixOf (cut kws t) = kw.isPrefixOf t := by
  induction kw generalizing t with
  | nil => rfl
  | cons a k ih =>
    simp only [List.mem_cons, not_or] at h1 h2
    cases t with
    | nil => rfl
    | cons c t =>
      simp only [cut, List.isPrefixOf, ih h1.2 h2.2]
      split
      · next hc =>
        rw [hc.1]
        have e1 : (a == 124) = false := by simpa using fun h => h2.1 h.symm
        have e2 : (a == 32) = false := by simpa using fun h => h1.1 h.symm
        rw [e1, e2]
      · rfl

theorem cut_one {kw : PyStr} (h1 : 32 ∉ kw) (s : PyStr) :
    (RE.ofLit (32 :: kw)).subGo (124 :: kw) none 0 s = cut [kw] s := by
  generalize hn : s.length = n
  induction n using Nat.strongRecOn generalizing s with
  | ind n ih =>
    cases s with
    | nil => rw [RE.subGo_nil]; rfl
    | cons c t =>
      have hm := RE.match_ofLit (32 :: kw) (c :: t)
      by_cases hc : c = 32 ∧ kw.isPrefixOf t = true
      · obtain ⟨rfl, hp⟩ := hc
        rw [if_pos (by simpa using hp)] at hm
        rw [RE.subGo_some hm (by simp) (by simp) (by simp)]
        simp only [List.length_cons, List.drop_succ_cons, Option.map_none]
        obtain ⟨rest, rfl⟩ := List.isPrefixOf_iff_prefix.1 hp
        rw [List.drop_left, ih rest.length (by simp at hn; omega) rest rfl]
        simp only [cut]
        rw [cut_word h1]
        simp [opensB, hp]
      · have hno : ¬ (32 :: kw).isPrefixOf (c :: t) = true := by
          intro h
          simp only [List.isPrefixOf, Bool.and_eq_true, beq_iff_eq] at h
          exact hc ⟨h.1.symm, h.2⟩
        rw [if_neg hno] at hm
        rw [RE.subGo_none hm, ih t.length (by simp at hn; omega) t rfl]
        simp only [cut]
        rw [if_neg]
        simpa [opensB] using hc

theorem cut_cut {kw : PyStr} {kws : List PyStr} (h1 : 32 ∉ kw) (h2 : 124 ∉ kw) (s : PyStr) :
    cut [kw] (cut kws s) = cut (kws ++ [kw]) s := by
  induction s with
  | nil => rfl
  | cons c t ih =>
    simp only [cut, ih, List.cons.injEq, and_true]
    have e : opensB [kw] (cut kws t) = kw.isPrefixOf t := by
      simp [opensB, isPrefixOf_cut h1 h2]
    have e' : opensB (kws ++ [kw]) t = (opensB kws t || kw.isPrefixOf t) := by
      simp [opensB]
    rw [e, e']
    by_cases hc : c = 32
    · subst hc
      cases h : opensB kws t <;> cases h' : kw.isPrefixOf t <;> simp
    · simp [hc]

theorem lstrip_keyword {kw : PyStr} (h : Plain kw) : lstrip (32 :: kw) = kw := by
  unfold lstrip
  rw [List.dropWhile_cons, if_pos (by decide)]
  cases kw with
  | nil => rfl
  | cons c t => simp [(h.2 c (by simp)).1]

theorem foldl_cut {kws pre : List PyStr} (h : ∀ kw ∈ kws, Plain kw) (s : PyStr) :
    kws.foldl (fun s kw => (RE.ofLit (Space.add .left kw)).sub (124 :: lstrip (Space.add .left kw)) s 0)
      (cut pre s) = cut (pre ++ kws) s := by
  induction kws generalizing pre with
  | nil => simp
  | cons kw kws ih =>
    simp only [List.foldl_cons]
    have hk := h kw (by simp)
    have : (RE.ofLit (Space.add .left kw)).sub (124 :: lstrip (Space.add .left kw)) (cut pre s) 0 =
        cut (pre ++ [kw]) s := by
      simp only [Space.add, lstrip_keyword hk]
      show (RE.ofLit (32 :: kw)).subGo (124 :: kw) none 0 (cut pre s) = _
      rw [cut_one hk.no_blank, cut_cut hk.no_blank hk.no_bar]
    rw [this, ih fun k hk' => h k (by simp [hk'])]
    simp

/-- `split_sentence` with a blank on the left and no limit. -/
theorem splitSentence_left {kws : List PyStr} (h : ∀ kw ∈ kws, Plain kw) (s : PyStr) :
    splitSentence s kws 0 .left = splitC 124 (cut kws s) := by
  unfold splitSentence
  have := foldl_cut (pre := []) h s
  rw [cut_nil_kws, List.nil_append] at this
  simp only
  rw [this]

/-! ### The pieces -/

theorem splitC_ne (sep : Nat) (s : PyStr) : splitC sep s ≠ [] := by
  cases s with
  | nil => simp [splitC]
  | cons c t =>
    simp only [splitC]
    split
    · simp
    · split <;> simp

/-- Put a character in front of the first piece. -/
theorem splitC_cons {sep c : Nat} {t : PyStr} (h : c ≠ sep) :
    ∃ w ws, splitC sep t = w :: ws ∧ splitC sep (c :: t) = (c :: w) :: ws := by
  cases hs : splitC sep t with
  | nil => exact absurd hs (splitC_ne sep t)
  | cons w ws => exact ⟨w, ws, rfl, by simp [splitC, h, hs]⟩

theorem splitC_sep {sep : Nat} {t : PyStr} : splitC sep (sep :: t) = [] :: splitC sep t := by
  simp [splitC]

theorem splitC_no_sep {sep : Nat} (s : PyStr) : ∀ w ∈ splitC sep s, sep ∉ w := by
  induction s with
  | nil => simp [splitC]
  | cons c t ih =>
    by_cases hc : c = sep
    · subst hc
      rw [splitC_sep]
      simpa using ih
    · obtain ⟨w, ws, h1, h2⟩ := splitC_cons (t := t) hc
      rw [h1] at ih
      rw [h2]
      simp only [List.mem_cons, forall_eq_or_imp, not_or] at ih ⊢
      exact ⟨⟨fun h => hc h.symm, ih.1⟩, ih.2⟩

theorem splitC_join {sep : Nat} (ws : List PyStr) (hne : ws ≠ []) (h : ∀ w ∈ ws, sep ∉ w) :
    splitC sep (join [sep] ws) = ws := by
  have word : ∀ (w : PyStr), sep ∉ w → splitC sep w = [w] := by
    intro w
    induction w with
    | nil => intro _; rfl
    | cons c t ih =>
      intro hw
      simp only [List.mem_cons, not_or] at hw
      simp [splitC, Ne.symm hw.1, ih hw.2]
  have front : ∀ (w s : PyStr), sep ∉ w → splitC sep (w ++ sep :: s) = w :: splitC sep s := by
    intro w s
    induction w with
    | nil => intro _; simp [splitC]
    | cons c t ih =>
      intro hw
      simp only [List.mem_cons, not_or] at hw
      simp only [List.cons_append, splitC, ih hw.2]
      rw [if_neg fun h => hw.1 h.symm]
  induction ws with
  | nil => exact absurd rfl hne
  | cons w ws ih =>
    cases ws with
    | nil => exact word w (h w (by simp))
    | cons v vs =>
      simp only [join, List.append_assoc, List.singleton_append]
      rw [front w _ (h w (by simp)), ih (by simp) fun x hx => h x (by simp [hx])]

theorem join_splitC {sep : Nat} (s : PyStr) : join [sep] (splitC sep s) = s := by
  induction s with
  | nil => rfl
  | cons c t ih =>
    by_cases hc : c = sep
    · subst hc
      rw [splitC_sep]
      cases hs : splitC c t with
      | nil => exact absurd hs (splitC_ne _ _)
      | cons w ws => rw [hs] at ih; simp [join, ih]
    · obtain ⟨w, ws, h1, h2⟩ := splitC_cons (t := t) hc
      rw [h1] at ih
      rw [h2]
      cases ws with
      | nil => simp only [join] at ih ⊢; rw [ih]
      | cons v vs => simp only [join] at ih ⊢; simpa using ih

theorem prefix_front {kw w s : PyStr} {c : Nat} (h : c ∉ kw) : kw <+: w ++ c :: s ↔ kw <+: w := by
  constructor
  · intro hp
    induction kw generalizing w with
    | nil => exact List.nil_prefix
    | cons a k ih =>
      simp only [List.mem_cons, not_or] at h
      cases w with
      | nil =>
        rw [List.nil_append, List.cons_prefix_cons] at hp
        exact absurd hp.1.symm h.1
      | cons b w =>
        rw [List.cons_append, List.cons_prefix_cons] at hp
        rw [List.cons_prefix_cons]
        exact ⟨hp.1, ih h.2 hp.2⟩
  · intro hp
    exact hp.trans (List.prefix_append _ _)

theorem opens_front {kws : List PyStr} {w s : PyStr} {c : Nat} (h : ∀ kw ∈ kws, c ∉ kw) :
    Opens kws (w ++ c :: s) ↔ Opens kws w := by
  constructor
  · rintro ⟨kw, hk, hp⟩
    exact ⟨kw, hk, (prefix_front (h kw hk)).1 hp⟩
  · rintro ⟨kw, hk, hp⟩
    exact ⟨kw, hk, (prefix_front (h kw hk)).2 hp⟩

/-- The first piece begins like the text. -/
theorem head_piece {kws : List PyStr} (s : PyStr) (w : PyStr)
    (ws : List PyStr) (h : splitC 124 (cut kws s) = w :: ws) (kws' : List PyStr)
    (hk' : ∀ kw ∈ kws', Plain kw) : Opens kws' w ↔ Opens kws' s := by
  have e : cut kws s = join [124] (w :: ws) := by rw [← h, join_splitC]
  have e1 : Opens kws' (cut kws s) ↔ Opens kws' s := by
    unfold Opens
    refine exists_congr fun kw => and_congr_right fun hkw => ?_
    rw [← List.isPrefixOf_iff_prefix, ← List.isPrefixOf_iff_prefix,
      isPrefixOf_cut (hk' kw hkw).no_blank (hk' kw hkw).no_bar]
  rw [← e1, e]
  cases ws with
  | nil => exact Iff.rfl
  | cons v vs =>
    simp only [join, List.append_assoc, List.singleton_append]
    exact (opens_front fun kw hkw => (hk' kw hkw).no_bar).symm

/-- Every piece is whole. -/
theorem pieces_whole {kws : List PyStr} (hk : ∀ kw ∈ kws, Plain kw) (s : PyStr) :
    ∀ p ∈ splitC 124 (cut kws s), ¬ Holds kws p := by
  have hnil : ¬ Holds kws [] := by
    rintro ⟨pre, post, h, -⟩
    simp at h
  induction s with
  | nil =>
    intro p hp
    simp [cut, splitC] at hp
    subst hp
    exact hnil
  | cons c t ih =>
    simp only [cut]
    by_cases h124 : (if c = 32 ∧ opensB kws t = true then 124 else c) = 124
    · rw [h124, splitC_sep]
      intro p hp
      rcases List.mem_cons.1 hp with rfl | hp
      · exact hnil
      · exact ih p hp
    · obtain ⟨w, ws, h1, h2⟩ := splitC_cons (t := cut kws t) h124
      rw [h2]
      intro p hp
      rcases List.mem_cons.1 hp with rfl | hp
      · rintro ⟨pre, post, he, ho⟩
        cases pre with
        | nil =>
          simp only [List.nil_append, List.cons.injEq] at he
          rw [← he.2] at ho
          have := opensB_iff.2 ((head_piece t w ws h1 kws hk).1 ho)
          simp only [this, and_true] at he h124
          by_cases hc : c = 32
          · simp [hc] at h124
          · exact hc (by simpa [hc] using he.1)
        | cons a pre =>
          simp only [List.cons_append, List.cons.injEq] at he
          exact ih w (by rw [h1]; simp) ⟨pre, post, he.2, ho⟩
      · exact ih p (by rw [h1]; simp [hp])

/-- The pieces of a text without `|`. -/
theorem pieces_cut {kws : List PyStr} (hk : ∀ kw ∈ kws, Plain kw) (s : PyStr) (hs : 124 ∉ s) :
    Pieces kws s (splitC 124 (cut kws s)) := by
  refine ⟨splitC_ne _ _, ?_, ?_, pieces_whole hk s⟩
  · induction s with
    | nil => rfl
    | cons c t ih =>
      simp only [List.mem_cons, not_or] at hs
      have ih := ih hs.2
      simp only [cut]
      by_cases hc : c = 32 ∧ opensB kws t = true
      · rw [if_pos hc, splitC_sep]
        cases h : splitC 124 (cut kws t) with
        | nil => exact absurd h (splitC_ne _ _)
        | cons w ws =>
          rw [h] at ih
          simp [join, ih, hc.1]
      · rw [if_neg hc]
        obtain ⟨w, ws, h1, h2⟩ := splitC_cons (t := cut kws t) (Ne.symm hs.1)
        rw [h1] at ih
        rw [h2]
        cases ws with
        | nil => simp only [join] at ih ⊢; rw [ih]
        | cons v vs => simp only [join] at ih ⊢; simpa using ih
  · induction s with
    | nil => simp [cut, splitC]
    | cons c t ih =>
      simp only [List.mem_cons, not_or] at hs
      have ih := ih hs.2
      simp only [cut]
      by_cases hc : c = 32 ∧ opensB kws t = true
      · rw [if_pos hc, splitC_sep]
        cases h : splitC 124 (cut kws t) with
        | nil => exact absurd h (splitC_ne _ _)
        | cons w ws =>
          rw [h] at ih
          simp only [List.tail_cons, List.mem_cons, forall_eq_or_imp] at ih ⊢
          exact ⟨(head_piece t w ws h kws hk).2 (opensB_iff.1 hc.2), ih⟩
      · rw [if_neg hc]
        obtain ⟨w, ws, h1, h2⟩ := splitC_cons (t := cut kws t) (Ne.symm hs.1)
        rw [h1] at ih
        rw [h2]
        exact ih

theorem cut_whole {kws : List PyStr} {p : PyStr} (h : ¬ Holds kws p) : cut kws p = p := by
  induction p with
  | nil => rfl
  | cons c t ih =>
    simp only [cut]
    rw [ih, if_neg]
    · rintro ⟨rfl, ho⟩
      exact h ⟨[], t, rfl, opensB_iff.1 ho⟩
    · rintro ⟨pre, post, he, ho⟩
      exact h ⟨c :: pre, post, by rw [he]; rfl, ho⟩

/-- There is only one way to cut a text. -/
theorem cut_append {kws : List PyStr} (hk : ∀ kw ∈ kws, Plain kw) {p q : PyStr} :
    cut kws (p ++ 32 :: q) = cut kws p ++ cut kws (32 :: q) := by
  induction p with
  | nil => rfl
  | cons c t ih =>
    simp only [List.cons_append, cut]
    rw [ih]
    have : opensB kws (t ++ 32 :: q) = opensB kws t := by
      rw [Bool.eq_iff_iff, opensB_iff, opensB_iff, opens_front fun kw hkw => (hk kw hkw).no_blank]
    simp [this, cut]

theorem pieces_unique {kws : List PyStr} (hk : ∀ kw ∈ kws, Plain kw) {s : PyStr} {ps : List PyStr}
    (hs : 124 ∉ s) (h : Pieces kws s ps) : splitC 124 (cut kws s) = ps := by
  obtain ⟨hne, rfl, ho, hw⟩ := h
  have e : cut kws (join [32] ps) = join [124] ps := by
    clear hs
    induction ps with
    | nil => exact absurd rfl hne
    | cons p ps ih =>
      cases ps with
      | nil => exact cut_whole (hw p (by simp))
      | cons q qs =>
        simp only [join, List.append_assoc, List.singleton_append] at ih ⊢
        rw [cut_append hk, cut_whole (hw p (by simp)), cut]
        have hq : opensB kws (join [32] (q :: qs)) = true := by
          rw [opensB_iff]
          have : Opens kws q := ho q (by simp)
          cases qs with
          | nil => exact this
          | cons r rs =>
            simp only [join, List.append_assoc, List.singleton_append]
            exact (opens_front fun kw hkw => (hk kw hkw).no_blank).2 this
        rw [if_pos ⟨rfl, hq⟩, ih (by simp) (fun x hx => ho x (by simp at hx ⊢; exact .inr hx))
          fun x hx => hw x (by simp at hx ⊢; exact .inr hx)]
  rw [e]
  apply splitC_join _ hne
  intro w hw' h124
  apply hs
  clear e hw ho hs
  induction ps with
  | nil => cases hw'
  | cons p ps ih =>
    cases ps with
    | nil =>
      simp only [List.mem_singleton] at hw'
      subst hw'; exact h124
    | cons q qs =>
      simp only [join, List.mem_append]
      rcases List.mem_cons.1 hw' with rfl | hw'
      · exact .inl (.inl h124)
      · exact .inr (ih (by simp) hw')

end Verif
