import Verif.Lemmas.Account
import Verif.Lemmas.Engine
import Verif.Lemmas.RunErr
import Verif.Spec.Foreign

/-
Helper lemmas for C98.
-/

namespace Verif
open Spec

theorem inside_mem {cc : CC} {c : Nat} (hi : inside (.chr cc) = true) (hm : cc.mem c = true) :
    telegraphic c = true := by
  cases cc with
  | space => cases hi
  | digit =>
    have : isDigit c = true := hm
    simp [telegraphic, this]
  | set rs =>
    simp only [inside, List.all_eq_true] at hi
    simp only [CC.mem, CC.ranges, inRanges, List.any_eq_true] at hm
    obtain ⟨r, hr, h⟩ := hm
    have h1 := hi r hr
    simp only [Bool.and_eq_true, Nat.ble_eq] at h
    simp only [Bool.or_eq_true, Bool.and_eq_true, decide_eq_true_eq] at h1
    rcases h1 with (⟨h2, h3⟩ | ⟨h2, h3⟩) | ⟨h2, h3⟩
    · have : 65 ≤ c ∧ c ≤ 90 := by omega
      simp [telegraphic, this]
    · have : 48 ≤ c ∧ c ≤ 57 := by omega
      have hd : isDigit c = true := by
        obtain ⟨a, b⟩ := this
        have : c = 48 ∨ c = 49 ∨ c = 50 ∨ c = 51 ∨ c = 52 ∨ c = 53 ∨ c = 54 ∨ c = 55 ∨ c = 56 ∨ c = 57 := by
          omega
        rcases this with rfl | rfl | rfl | rfl | rfl | rfl | rfl | rfl | rfl | rfl <;> decide
      simp [telegraphic, hd]
    · have : c = r.1 := by omega
      rw [this]
      simp only [telegraphic, Bool.or_eq_true]
      exact .inr h3

theorem inside_rep {cc : CC} {lo : Nat} {hi : Option Nat} : inside (.rep cc lo hi) = inside (.chr cc) := rfl

/-- No way through a text goes past a foreign character, or through `$` before it. -/
theorem way_before {p t : PyStr} {c : Nat} (hc : Foreign c) {r : RE} {i q : Nat} {w : List Nat} {cs : Caps}
    (h : Way (p ++ c :: t) r i w q cs) : inside r = true → i ≤ p.length →
    Way p (unended r) i w q cs ∧ q ≤ p.length := by
  have hchar : ∀ {cc : CC} {j x : Nat}, inside (.chr cc) = true → j ≤ p.length →
      (p ++ c :: t)[j]? = some x → cc.mem x = true → p[j]? = some x ∧ j < p.length := by
    intro cc j x hi hj hx hm
    by_cases hlt : j < p.length
    · rw [List.getElem?_append_left hlt] at hx
      exact ⟨hx, hlt⟩
    · have : j = p.length := by omega
      rw [this, List.getElem?_append_right (Nat.le_refl _)] at hx
      simp at hx
      rw [← hx] at hm
      have := inside_mem hi hm
      rw [hc.1] at this
      cases this
  induction h with
  | eps i => exact fun _ h => ⟨.eps _, h⟩
  | chr hx hm =>
    intro hi hj
    obtain ⟨h1, h2⟩ := hchar hi hj hx hm
    exact ⟨.chr h1 hm, h2⟩
  | seq _ _ ih1 ih2 =>
    intro hi hj
    simp only [inside, Bool.and_eq_true] at hi
    obtain ⟨h1, h2⟩ := ih1 hi.1 hj
    obtain ⟨h3, h4⟩ := ih2 hi.2 h2
    exact ⟨.seq h1 h3, h4⟩
  | left _ ih =>
    intro hi hj
    simp only [inside, Bool.and_eq_true] at hi
    obtain ⟨h1, h2⟩ := ih hi.1 hj
    exact ⟨.left h1, h2⟩
  | right _ ih =>
    intro hi hj
    simp only [inside, Bool.and_eq_true] at hi
    obtain ⟨h1, h2⟩ := ih hi.2 hj
    exact ⟨.right h1, h2⟩
  | use _ ih =>
    intro hi hj
    obtain ⟨h1, h2⟩ := ih hi hj
    exact ⟨.use h1, h2⟩
  | skip i => exact fun _ h => ⟨.skip _, h⟩
  | @rep cc lo hi i k hlo hhi hall =>
    intro hi hj
    rw [inside_rep] at hi
    have key : ∀ n ≤ k, i + n ≤ p.length := by
      intro n hn
      induction n with
      | zero => simpa using hj
      | succ n ihn =>
        obtain ⟨x, hx, hm⟩ := hall n (by omega)
        have := (hchar hi (ihn (by omega)) hx hm).2
        omega
    refine ⟨.rep hlo hhi ?_, key k (Nat.le_refl _)⟩
    intro n hn
    obtain ⟨x, hx, hm⟩ := hall n hn
    exact ⟨x, (hchar hi (key n (by omega)) hx hm).1, hm⟩
  | grp _ ih =>
    intro hi hj
    obtain ⟨h1, h2⟩ := ih hi hj
    exact ⟨.grp h1, h2⟩
  | bos => exact fun _ h => ⟨.bos, h⟩
  | @eos j he =>
    intro _ hj
    exfalso
    simp only [List.length_append, List.length_cons] at he
    rcases he with h | ⟨h1, h2⟩
    · omega
    · have : j = p.length := by omega
      rw [this, List.getElem?_append_right (Nat.le_refl _)] at h2
      simp at h2
      exact hc.2 h2

/-- A way that does not need `$` stays when text is added. -/
theorem way_longer {p : PyStr} (t : PyStr) {r : RE} : ∀ {i q : Nat} {w : List Nat} {cs : Caps},
    Way p (unended r) i w q cs → Way (p ++ t) r i w q cs := by
  have hget : ∀ {j x : Nat}, p[j]? = some x → (p ++ t)[j]? = some x := by
    intro j x h
    rw [List.getElem?_append_left (List.getElem?_eq_some_iff.1 h).1]
    exact h
  induction r with
  | eps => intro i q w cs h; cases h; exact .eps _
  | chr cc => intro i q w cs h; cases h with | chr hx hm => exact .chr (hget hx) hm
  | seq a b iha ihb => intro i q w cs h; cases h with | seq h1 h2 => exact .seq (iha h1) (ihb h2)
  | alt a b iha ihb =>
    intro i q w cs h
    cases h with
    | left h => exact .left (iha h)
    | right h => exact .right (ihb h)
  | opt a ih =>
    intro i q w cs h
    cases h with
    | use h => exact .use (ih h)
    | skip => exact .skip _
  | rep cc lo hi =>
    intro i q w cs h
    cases h with
    | rep h1 h2 h3 =>
      exact .rep h1 h2 fun n hn => (h3 n hn).imp fun x hx => ⟨hget hx.1, hx.2⟩
  | grp n a ih => intro i q w cs h; cases h with | grp h => exact .grp (ih h)
  | bos => intro i q w cs h; cases h; exact .bos
  | eos => intro i q w cs h; cases h with | chr hx hm => cases hm

/-- The first way stops before a foreign character. -/
theorem firstWay_foreign {p t : PyStr} {c : Nat} (hc : Foreign c) {r : RE} (hr : inside r = true) {q : Nat}
    {cs : Caps} : FirstWay (p ++ c :: t) r 0 q cs ↔ FirstWay p (unended r) 0 q cs := by
  constructor
  · rintro ⟨w, h1, h2⟩
    exact ⟨w, (way_before hc h1 hr (Nat.zero_le _)).1, fun v t ds h => h2 v t ds (way_longer _ h)⟩
  · rintro ⟨w, h1, h2⟩
    exact ⟨w, way_longer _ h1, fun v t ds h => h2 v t ds (way_before hc h hr (Nat.zero_le _)).1⟩

theorem match_foreign {p t : PyStr} {c : Nat} (hc : Foreign c) {r : RE} (hr : inside r = true) :
    r.match (p ++ c :: t) = ((unended r).match p).map fun m => { m with string := p ++ c :: t } := by
  cases h : (unended r).match p with
  | none =>
    rw [match_none_iff] at h
    rw [Option.map_none, match_none_iff]
    intro w q cs hw
    exact h _ _ _ (way_before hc hw hr (Nat.zero_le _)).1
  | some m =>
    rw [match_iff] at h
    rw [Option.map_some, match_iff]
    exact ⟨rfl, (firstWay_foreign hc hr).2 h.2⟩

/-- Captures lie in the part that was read. -/
theorem way_caps {s : PyStr} {r : RE} {i q : Nat} {w : List Nat} {cs : Caps} (h : Way s r i w q cs) :
    i ≤ q ∧ ∀ x ∈ cs, x.2.1 ≤ x.2.2 ∧ x.2.2 ≤ q := by
  induction h with
  | eps => simp
  | chr => simp
  | seq _ _ ih1 ih2 =>
    refine ⟨by omega, fun x hx => ?_⟩
    rcases List.mem_append.1 hx with h | h
    · exact ih2.2 x h
    · have := ih1.2 x h; omega
  | left _ ih => exact ih
  | right _ ih => exact ih
  | use _ ih => exact ih
  | skip => simp
  | rep => simp
  | grp _ ih =>
    refine ⟨ih.1, fun x hx => ?_⟩
    rcases List.mem_cons.1 hx with rfl | h
    · exact ⟨ih.1, Nat.le_refl _⟩
    · exact ih.2 x h
  | bos => simp
  | eos => simp

/-- The groups of a match are those of the text before the foreign character. -/
theorem group_foreign {p t : PyStr} {r : RE} {m : Match} (hm : (unended r).match p = some m) (n : Cap) :
    ({ m with string := p ++ t } : Match).group n = m.group n := by
  obtain ⟨hs, w, hw, -⟩ := match_iff.1 hm
  have hq : m.stop ≤ p.length := by
    have := way_length hw (Nat.zero_le _)
    exact this
  unfold Match.group
  rw [hs]
  cases hl : m.caps.lookup n with
  | none => rfl
  | some ab =>
    obtain ⟨a, b⟩ := ab
    simp only [Option.map_some]
    obtain ⟨l, l', e, -⟩ := lookup_some_iff.1 hl
    have := (way_caps hw).2 (n, a, b) (by rw [e]; simp)
    simp only at this
    congr 1
    rw [List.drop_append_of_le_length (by omega), List.take_append_of_le_length (by
      rw [List.length_drop]; omega)]

/-- A pattern all of whose ways end at `$`. -/
def deadEnd : RE → Bool
  | .eos => true
  | .seq a b => deadEnd a || deadEnd b
  | .alt a b => deadEnd a && deadEnd b
  | .grp _ a => deadEnd a
  | _ => false

theorem deadEnd_sound {r : RE} : deadEnd r = true → Ended r := by
  induction r with
  | eos =>
    intro _ s p w q cs h
    cases h with | chr _ hm => cases hm
  | seq a b iha ihb =>
    intro h s p w q cs hw
    simp only [deadEnd, Bool.or_eq_true] at h
    cases hw with
    | seq h1 h2 =>
      rcases h with h | h
      · exact iha h s _ _ _ _ h1
      · exact ihb h s _ _ _ _ h2
  | alt a b iha ihb =>
    intro h s p w q cs hw
    simp only [deadEnd, Bool.and_eq_true] at h
    cases hw with
    | left h1 => exact iha h.1 s _ _ _ _ h1
    | right h1 => exact ihb h.2 s _ _ _ _ h1
  | grp n a ih =>
    intro h s p w q cs hw
    cases hw with | grp h1 => exact ih h s _ _ _ _ h1
  | _ => intro h; cases h

/-- What the pattern accepts without `$` it accepts in the same way with it. -/
def Late (r : RE) : Prop := ∀ p m, (unended r).match p = some m → r.match p = some m

theorem late_closed {r : RE} (h : deadEnd r = true) : Late r := by
  intro p m hm
  rw [match_none_iff.2 (deadEnd_sound h p 0)] at hm
  cases hm

theorem late_open {r : RE} (h : unended r = r) : Late r := by
  intro p m hm
  rwa [h] at hm

theorem match_alt (a b : RE) (s : PyStr) : (RE.alt a b).match s = (a.match s).or (b.match s) := by
  unfold RE.match
  rw [RE.m]
  cases h : RE.m s a (0, []) <;> simp

theorem late_alt {a b : RE} (ha : unended a = a) (hb : Late b) : Late (.alt a b) := by
  intro p m hm
  rw [unended, match_alt, ha] at hm
  rw [match_alt]
  cases h : a.match p with
  | none =>
    rw [h, Option.none_or] at hm
    rw [Option.none_or]
    exact hb p m hm
  | some x => rw [h] at hm; exact hm

theorem taf_late : Late TafRegExp.VISIBILITY ∧ Late TafRegExp.TEMPERATURE ∧ Late MetarRegExp.CHANGE_INDICATOR ∧
    Late TafRegExp.CHANGE_INDICATOR :=
  ⟨late_alt (by decide +kernel) (late_alt (by decide +kernel) (late_closed (by decide +kernel))),
   late_open (by decide +kernel),
   late_alt (by decide +kernel) (late_alt (by decide +kernel) (late_closed (by decide +kernel))),
   late_alt (by decide +kernel) (late_alt (by decide +kernel) (late_alt (by decide +kernel)
     (late_closed (by decide +kernel))))⟩

theorem way_letter {s : PyStr} {n : Nat} {b : RE} {i q : Nat} {w : List Nat} {cs : Caps}
    (h : Way s (.seq (.chr (.set [(n, n)])) b) i w q cs) : s[i]? = some n := by
  cases h with
  | seq h1 h2 =>
    cases h1 with
    | @chr _ _ x hx hm =>
      simp only [CC.mem, CC.ranges, inRanges, List.any_cons, List.any_nil, Bool.or_false, Bool.and_eq_true,
        Nat.ble_eq] at hm
      rw [hx]
      congr 1
      omega

theorem dget_foreign {p t : PyStr} {c : Nat} (hc : Foreign c) : dget changeTranslations (p ++ c :: t) = none := by
  cases h : dget changeTranslations (p ++ c :: t) with
  | none => rfl
  | some v =>
    exfalso
    obtain ⟨l, r, e, -⟩ := List.lookup_eq_some_iff.1 h
    have hm : (p ++ c :: t, v) ∈ changeTranslations := by rw [e]; simp
    have hk : ∀ x ∈ changeTranslations, ∀ y ∈ x.1, telegraphic y = true := by decide +kernel
    have := hk _ hm c (by simp)
    rw [hc.1] at this
    cases this

theorem prefix_get {s : PyStr} {n m : Nat} {l : PyStr} (h : s[0]? = some n) (hn : n ≠ m) :
    startsWith s (m :: l) = false := by
  cases s with
  | nil => rfl
  | cons x s =>
    simp only [List.getElem?_cons_zero, Option.some.injEq] at h
    subst h
    simp [startsWith, List.isPrefixOf, Ne.symm hn]

theorem section_foreign {σ : Type} {hs : List (Handler σ)} {gs un : List PyStr} {cs : List (PyStr × Nat)}
    (hd : Decodes hs gs cs) (hl : Leaves hs gs un) {p t : PyStr} {c : Nat} (hg : p ++ c :: t ∈ gs) :
    p ++ c :: t ∈ un ∨ ∃ i h m, (p ++ c :: t, i) ∈ cs ∧ hs[i]? = some h ∧ h.regexp.match (p ++ c :: t) = some m := by
  rw [(decodes_perm hd hl).mem_iff, List.mem_append] at hg
  rcases hg with h | h
  · obtain ⟨⟨g, i⟩, hx, e⟩ := List.mem_map.1 h
    simp only at e
    subst e
    obtain ⟨h, m, h1, h2⟩ := decodes_match hd hx
    exact .inr ⟨i, h, m, hx, h1, h2⟩
  · exact .inl h

/-- The group names of a pattern. -/
def capNames : RE → List Cap
  | .seq a b | .alt a b => capNames a ++ capNames b
  | .opt a => capNames a
  | .grp n a => n :: capNames a
  | _ => []

theorem way_capNames {s : PyStr} {r : RE} {i q : Nat} {w : List Nat} {cs : Caps} (h : Way s r i w q cs) :
    ∀ x ∈ cs, x.1 ∈ capNames r := by
  induction h with
  | seq _ _ ih1 ih2 =>
    intro x hx
    simp only [capNames, List.mem_append] at hx ⊢
    exact hx.symm.imp (ih1 x) (ih2 x)
  | left _ ih => exact fun x hx => List.mem_append_left _ (ih x hx)
  | right _ ih => exact fun x hx => List.mem_append_right _ (ih x hx)
  | use _ ih => exact ih
  | grp _ ih =>
    intro x hx
    rcases List.mem_cons.1 hx with rfl | hx
    · exact List.mem_cons_self
    · exact List.mem_cons_of_mem _ (ih x hx)
  | _ => simp

/-- Four digits are a visibility of a TAF, whatever stands behind them. -/
theorem taf_four_digits {a b c d : Nat} (t : PyStr) (ha : isDigit a = true) (hb : isDigit b = true)
    (hc : isDigit c = true) (hd : isDigit d = true) :
    ∃ m, TafRegExp.VISIBILITY.match (a :: b :: c :: d :: t) = some m ∧ m.string = a :: b :: c :: d :: t ∧
      m.group .vis = some [a, b, c, d] ∧ (∀ n, n ≠ .vis → n ≠ .dir → m.group n = none) := by
  unfold TafRegExp.VISIBILITY
  rw [match_alt]
  generalize hs : a :: b :: c :: d :: t = s
  generalize hl : RE.seq RE.bos _ = l
  cases h : l.match s with
  | none =>
    exfalso
    rw [match_none_iff] at h
    subst hl
    refine h _ _ _ (.seq .bos (.seq (.grp (.rep (k := 4) (by decide) (by simp) ?_)) (.skip _)))
    intro n hn
    subst hs
    match n, hn with
    | 0, _ => exact ⟨a, rfl, ha⟩
    | 1, _ => exact ⟨b, rfl, hb⟩
    | 2, _ => exact ⟨c, rfl, hc⟩
    | 3, _ => exact ⟨d, rfl, hd⟩
  | some m =>
    obtain ⟨e, w, hw, -⟩ := match_iff.1 h
    refine ⟨m, by simp, e, ?_⟩
    obtain ⟨s', q, cs⟩ := m
    simp only at e hw
    subst e
    have hn := way_capNames hw
    subst hl
    clear h
    refine ⟨?_, ?_⟩
    · cases hw with
      | seq h1 h2 =>
        cases h1
        cases h2 with
        | seq h1 h2 =>
          cases h1 with
          | grp h1 =>
            cases h1 with
            | @rep _ _ _ _ k h3 h4 h5 =>
              have hk : k = 4 := Nat.le_antisymm (h4 4 rfl) h3
              subst hk
              have hv := way_capNames h2
              simp only [capNames, List.append_nil, List.mem_cons, List.not_mem_nil, or_false] at hv
              rw [group_some_iff]
              subst hs
              refine ⟨_, 0, 4, [], by rw [List.append_nil], ?_, rfl⟩
              intro x hx
              rw [hv x hx]
              decide
    · intro n h1 h2
      rw [group_none_iff]
      intro x hx e
      have := hn x hx
      simp only [capNames, List.append_nil, List.nil_append, List.mem_append, List.mem_cons, List.not_mem_nil,
        or_false] at this
      rw [e] at this
      exact this.elim h1 h2

/-- In a TAF the word CAVOK is read only if nothing follows it. -/
theorem taf_cavok_end {s : PyStr} {m : Match} (hm : TafRegExp.VISIBILITY.match s = some m)
    (hc : m.group .cavok ≠ none) (hn : 10 ∉ s) : s.length = 5 := by
  obtain ⟨-, w, hw, -⟩ := match_iff.1 hm
  have hcap : ∃ x ∈ m.caps, x.1 = Cap.cavok := by
    unfold Match.group at hc
    cases hl : m.caps.lookup Cap.cavok with
    | none => rw [hl] at hc; exact absurd rfl hc
    | some v =>
      have := List.lookup_eq_some_iff.1 hl
      obtain ⟨a, b, e, -⟩ := this
      exact ⟨(_, v), by rw [e]; simp, rfl⟩
  generalize m.stop = q, m.caps = cs at hw hcap
  obtain ⟨x, hx, hxn⟩ := hcap
  unfold TafRegExp.VISIBILITY at hw
  cases hw with
  | left h =>
    have := way_capNames h x hx
    rw [hxn] at this
    exact absurd this (by decide)
  | right h =>
    cases h with
    | left h =>
      have := way_capNames h x hx
      rw [hxn] at this
      exact absurd this (by decide)
    | right h =>
      cases h with
      | seq h1 h2 =>
        have h5 : ∀ {q' w cs}, Way s (re! [r"(?P<cavok>CAVOK)"]) 0 w q' cs → q' = 5 := by
          intro q' w cs h
          cases h with | grp h =>
          cases h with | seq a h =>
          cases a
          cases h with | seq a h =>
          cases a
          cases h with | seq a h =>
          cases a
          cases h with | seq a h =>
          cases a
          cases h
          rfl
        cases h2 with
        | eos h =>
          have := h5 h1
          subst this
          rcases h with h | ⟨-, h⟩
          · exact h.symm
          · exact absurd (List.mem_of_getElem? h) hn

end Verif
