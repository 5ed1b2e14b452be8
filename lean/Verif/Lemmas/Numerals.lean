import Verif.Spec.Numerals
import Verif.Lemmas.Captures
import Verif.Lemmas.Cut

/-
`int` and `float` of the texts that the library passes to them.
-/

namespace Verif
open Spec

theorem digitPart_ne {t : PyStr} {v n : Nat} (h : DigitPart t v n) : t ≠ [] := by
  cases h <;> simp

theorem digitPart_plain {t : PyStr} {v n : Nat} (h : DigitPart t v n) (hu : 95 ∉ t) :
    Digits t ∧ v = digitsVal t ∧ n = t.length := by
  induction h with
  | one hc => exact ⟨by intro c hc'; simp at hc'; subst hc'; exact hc, by simp [digitsVal], rfl⟩
  | @more t v n c _ hc ih =>
    simp only [List.mem_append, not_or] at hu
    obtain ⟨h1, h2, h3⟩ := ih hu.1
    refine ⟨h1.append (by intro d hd; simp at hd; subst hd; exact hc), ?_, by simp [h3]⟩
    rw [h2, digitsVal, digitsVal, List.foldl_append]; rfl
  | under _ _ _ => simp at hu

theorem digitPart_of {t : PyStr} (hn : t ≠ []) (hd : Digits t) :
    DigitPart t (digitsVal t) t.length := by
  have : ∀ r : PyStr, r ≠ [] → Digits r.reverse →
      DigitPart r.reverse (digitsVal r.reverse) r.reverse.length := by
    intro r
    induction r with
    | nil => intro h; exact absurd rfl h
    | cons c r ih =>
      intro _ hr
      by_cases h : r = []
      · subst h
        have := DigitPart.one (c := c) (hr c (by simp))
        simpa [digitsVal] using this
      · simp only [List.reverse_cons] at hr ⊢
        have h1 := ih h (fun d hd => hr d (by simp [List.mem_reverse.1 hd]))
        have h2 := DigitPart.more h1 (hr c (by simp))
        have e : digitsVal (r.reverse ++ [c]) = 10 * digitsVal r.reverse + digitVal c := by
          rw [digitsVal, digitsVal, List.foldl_append]; rfl
        rw [e, List.length_append]; exact h2
  have h := this t.reverse (by simpa using hn) (by simpa using hd)
  simpa using h

/-- A character of the texts passed to `float`. -/
def PlainChar (c : Nat) : Prop := isDigit c = true ∨ c ∈ py!"-/VRBXM."

theorem plain_not_space {c : Nat} (h : PlainChar c) : isSpace c = false := by
  rcases h with h | h
  · cases hs : isSpace c with
    | false => rfl
    | true =>
      exact absurd hs (by
        have := disjRanges_sound (a := digitRanges) (b := spaceRanges) (by decide +kernel) h
        simpa [isSpace] using this)
  · revert h; revert c; decide

theorem Spec.PlainFloat.chars {t : PyStr} (h : PlainFloat t) : ∀ c ∈ t, PlainChar c := by
  rcases h with h | ⟨s, w, f, hs, rfl, _, _, hw, hf⟩
  · intro c hc
    rcases h c hc with h | h
    · exact .inl h
    · exact .inr (List.mem_append_left py!"." h)
  · intro c hc
    simp only [List.append_assoc, List.mem_append, List.mem_cons] at hc
    rcases hc with hc | hc | rfl | hc
    · rcases hs with rfl | rfl
      · simp at hc
      · simp at hc; subst hc; right; decide
    · exact .inl (hw c hc)
    · right; decide
    · exact .inl (hf c hc)

theorem not_plainChar {c : Nat} (h1 : isDigit c = false) (h2 : c ∉ py!"-/VRBXM.") :
    ¬ PlainChar c := by
  rintro (h | h)
  · rw [h1] at h; simp at h
  · exact h2 h

theorem lower_head {t u : PyStr} {c : Nat} (h : lower t = c :: u) :
    ∃ d v, t = d :: v ∧ (if 65 ≤ d ∧ d ≤ 90 then d + 32 else d) = c := by
  cases t with
  | nil => simp [lower] at h
  | cons d v =>
    simp only [lower, List.map_cons, List.cons.injEq] at h
    exact ⟨d, v, rfl, h.1⟩

theorem decOf_point {w f : PyStr} (hw : w ≠ []) (hf : f ≠ []) (dw : Digits w) (df : Digits f) :
    decOf (w ++ 46 :: f) = some ((digitsVal w : Rat) + (digitsVal f : Rat) / 10 ^ f.length) := by
  unfold decOf
  rw [splitC_append 46 w f (dw.ne (by decide)), splitC_absent 46 f (df.ne (by decide))]
  simp only
  rw [if_pos ⟨hw, hf, dw.all, df.all⟩, digitsVal_append, Rat.mkRat_eq_div]
  congr 1
  have hp : ((10 : Rat) ^ f.length) ≠ 0 := Rat.ne_of_gt (Rat.pow_pos (by decide))
  push_cast
  rw [Rat.div_def, Rat.div_def, Rat.add_mul, Rat.mul_assoc, Rat.mul_inv_cancel _ hp, Rat.mul_one]

/-- The number of a text as the model reads it. -/
def numberOf (neg : Bool) (q : Rat) : F64 := F64.mk' (if neg then -q else q) neg

theorem floatOf_signed {s t : PyStr} {b : Bool} {q : Rat} (hs : SignText s b) (hp : 43 ∉ s)
    (ht : decOf t = some q) (h45 : t.head? ≠ some 45) : floatOf (s ++ t) = some (numberOf b q) := by
  cases hs with
  | none =>
    simp only [List.nil_append]
    unfold floatOf
    split
    · simp at h45
    · rw [ht]; rfl
  | plus => simp at hp
  | minus => simp only [List.cons_append, List.nil_append, floatOf, ht]; rfl

theorem Digits.head45 {t u : PyStr} (h : Digits t) (hn : t ≠ []) : (t ++ u).head? ≠ some 45 := by
  cases t with
  | nil => exact absurd rfl hn
  | cons c t =>
    intro e
    simp at e
    subst e
    exact absurd (h 45 (by simp)) (by decide)

theorem one_point {a b c d : PyStr} (ha : 46 ∉ a) (hc : 46 ∉ c) (h : a ++ 46 :: b = c ++ 46 :: d) :
    a = c ∧ b = d := by
  induction a generalizing c with
  | nil =>
    cases c with
    | nil => simp at h; exact ⟨rfl, h⟩
    | cons x c => simp at h hc; omega
  | cons x a ih =>
    cases c with
    | nil => simp at h ha; omega
    | cons y c =>
      simp only [List.cons_append, List.cons.injEq, List.mem_cons, not_or] at h ha hc
      obtain ⟨rfl, rfl⟩ := ih ha.2 hc.2 h.2
      exact ⟨by rw [h.1], rfl⟩

/-- Everything Python reads in such a text is read by the model as that. -/
theorem floatOf_of_text {t : PyStr} (hp : PlainFloat t) {v : FloatValue} (h : FloatText t v) :
    ∃ neg q, v = .finite neg q ∧ floatOf t = some (numberOf neg q) := by
  have hc := hp.chars
  obtain ⟨l, b, r, e, hl, hr, hb⟩ := h
  have hl0 : l = [] := by
    cases l with
    | nil => rfl
    | cons c l =>
      have h1 := plain_not_space (hc c (by rw [e]; simp))
      rw [hl c (by simp)] at h1; simp at h1
  have hr0 : r = [] := by
    cases r with
    | nil => rfl
    | cons c r =>
      have h1 := plain_not_space (hc c (by rw [e]; simp))
      rw [hr c (by simp)] at h1; simp at h1
  subst hl0 hr0
  simp only [List.nil_append, List.append_nil] at e
  subst e
  cases hb with
  | @plain s m bb q hs hm =>
    have h43 : 43 ∉ s := fun h => not_plainChar (by decide) (by decide) (hc 43 (by simp [h]))
    have h95 : 95 ∉ m := fun h => not_plainChar (by decide) (by decide) (hc 95 (by simp [h]))
    have hs46 : 46 ∉ s := by cases hs <;> simp
    refine ⟨bb, q, rfl, ?_⟩
    cases hm with
    | whole hd =>
      obtain ⟨h1, rfl, _⟩ := digitPart_plain hd h95
      have := h1.head45 (u := []) (digitPart_ne hd)
      exact floatOf_signed hs h43 (decOf_digits (digitPart_ne hd) h1) (by simpa using this)
    | @point u v n hd =>
      exfalso
      obtain ⟨h1, _, _⟩ := digitPart_plain hd (fun h => h95 (by simp [h]))
      rcases hp with h | ⟨s', w', f', hs', e, hw, hf, dw, df⟩
      · have := h 46 (by simp)
        rcases this with h | h
        · revert h; decide
        · revert h; decide
      · have hs46' : 46 ∉ s' ++ w' := by
          intro h
          rcases List.mem_append.1 h with h | h
          · rcases hs' with rfl | rfl <;> simp at h
          · exact absurd (dw 46 h) (by decide)
        have hsu : 46 ∉ s ++ u := by
          intro h
          rcases List.mem_append.1 h with h | h
          · exact hs46 h
          · exact absurd (h1 46 h) (by decide)
        have := (one_point (b := []) hsu hs46' (by rw [← e]; simp)).2
        exact hf this.symm
    | @both u u' v n w k hd hd' =>
      obtain ⟨h1, rfl, _⟩ := digitPart_plain hd (fun h => h95 (by simp [h]))
      obtain ⟨h2, rfl, rfl⟩ := digitPart_plain hd' (fun h => h95 (by simp [h]))
      exact floatOf_signed hs h43 (decOf_point (digitPart_ne hd) (digitPart_ne hd') h1 h2)
        (h1.head45 (digitPart_ne hd))
    | @frac u w k hd =>
      exfalso
      rcases hp with h | ⟨s', w', f', hs', e, hw, hf, dw, df⟩
      · have := h 46 (by simp)
        rcases this with h | h
        · revert h; decide
        · revert h; decide
      · have hs46' : 46 ∉ s' ++ w' := by
          intro h
          rcases List.mem_append.1 h with h | h
          · rcases hs' with rfl | rfl <;> simp at h
          · exact absurd (dw 46 h) (by decide)
        have e' := (one_point hs46 hs46' e).1
        have hm : ∃ c ∈ s, isDigit c = true := by
          rw [e']
          cases w' with
          | nil => exact absurd rfl hw
          | cons c w' => exact ⟨c, by simp, dw c (by simp)⟩
        obtain ⟨c, hcs, hcd⟩ := hm
        cases hs with
        | none => simp at hcs
        | plus => simp at h43
        | minus => simp at hcs; subst hcs; revert hcd; decide
  | @power s m ee u bb b' q c v n hs hm hcc he hd =>
    exfalso
    have := hc c (by simp)
    rcases hcc with rfl | rfl
    · exact not_plainChar (by decide) (by decide) this
    · exact not_plainChar (by decide) (by decide) this
  | @infinite s u bb hs hu =>
    exfalso
    have : ∃ w, lower u = 105 :: w := by
      rcases hu with h | h
      · exact ⟨_, h⟩
      · exact ⟨_, h⟩
    obtain ⟨w, hw⟩ := this
    obtain ⟨d, v, rfl, hd⟩ := lower_head hw
    have := hc d (by simp)
    have hd' : d = 105 ∨ d = 73 := by split at hd <;> omega
    rcases hd' with rfl | rfl
    · exact not_plainChar (by decide) (by decide) this
    · exact not_plainChar (by decide) (by decide) this
  | @nan s u bb hs hu =>
    exfalso
    obtain ⟨d, v, rfl, hd⟩ := lower_head hu
    have := hc d (by simp)
    have hd' : d = 110 ∨ d = 78 := by split at hd <;> omega
    rcases hd' with rfl | rfl
    · exact not_plainChar (by decide) (by decide) this
    · exact not_plainChar (by decide) (by decide) this

theorem mantissa_of_dec {t : PyStr} {q : Rat} (h : decOf t = some q) : Mantissa t q := by
  have hj := join_splitC (sep := 46) t
  unfold decOf at h
  split at h
  · rename_i a e
    split at h
    · rename_i ha
      simp only [Option.some.injEq] at h
      subst h
      rw [e] at hj
      simp only [join] at hj
      subst hj
      exact .whole (digitPart_of ha.1 (fun c hc => List.all_eq_true.1 ha.2 c hc))
    · simp at h
  · rename_i a b e
    split at h
    · rename_i ha
      obtain ⟨h1, h2, h3, h4⟩ := ha
      have d1 : Digits a := fun c hc => List.all_eq_true.1 h3 c hc
      have d2 : Digits b := fun c hc => List.all_eq_true.1 h4 c hc
      rw [e] at hj
      simp only [join, List.append_assoc, List.cons_append, List.nil_append] at hj
      have hm := Mantissa.both (digitPart_of h1 d1) (digitPart_of h2 d2)
      have hd := decOf_point h1 h2 d1 d2
      have : decOf (a ++ 46 :: b) = some q := by
        rw [hj]; unfold decOf; rw [e]; simp only; rw [if_pos ⟨h1, h2, h3, h4⟩]; exact h
      rw [hd] at this
      simp only [Option.some.injEq] at this
      rw [← hj, ← this]
      exact hm
    · simp at h
  · simp at h

/-- Everything that the model reads is read by Python as that. -/
theorem text_of_floatOf {t : PyStr} {x : F64} (h : floatOf t = some x) :
    ∃ neg q, FloatText t (.finite neg q) ∧ x = numberOf neg q := by
  unfold floatOf at h
  split at h
  · rename_i u
    rw [Option.map_eq_some_iff] at h
    obtain ⟨q, hq, rfl⟩ := h
    exact ⟨true, q, ⟨[], 45 :: u, [], by simp, by simp, by simp,
      .plain .minus (mantissa_of_dec hq)⟩, rfl⟩
  · rw [Option.map_eq_some_iff] at h
    obtain ⟨q, hq, rfl⟩ := h
    exact ⟨false, q, ⟨[], t, [], by simp, by simp, by simp,
      .plain .none (mantissa_of_dec hq)⟩, rfl⟩

theorem intOf_iff {t : PyStr} (hp : PlainInt t) (n : Nat) : intOf t = some n ↔ IntText t n := by
  constructor
  · intro h
    unfold intOf at h
    split at h
    · rename_i ht
      simp only [Option.some.injEq] at h
      exact ⟨[], [], t, [], false, _, _, by simp, by simp, by simp, .none,
        digitPart_of ht.1 (fun c hc => List.all_eq_true.1 ht.2 c hc), by simp [h]⟩
    · simp at h
  · rintro ⟨l, s, b, r, neg, v, k, rfl, hl, hr, hs, hb, hz⟩
    have hc : ∀ c ∈ l ++ s ++ b ++ r, isDigit c = true ∨ c = 47 := hp
    have hsp : ∀ c, (isDigit c = true ∨ c = 47) → isSpace c = false := by
      intro c hc
      exact plain_not_space (hc.imp id (by rintro rfl; decide))
    have hl0 : l = [] := by
      cases l with
      | nil => rfl
      | cons c l =>
        have h1 := hsp c (hc c (by simp))
        rw [hl c (by simp)] at h1; simp at h1
    have hr0 : r = [] := by
      cases r with
      | nil => rfl
      | cons c r =>
        have h1 := hsp c (hc c (by simp))
        rw [hr c (by simp)] at h1; simp at h1
    subst hl0 hr0
    have h95 : 95 ∉ b := fun h => by
      have := hc 95 (by simp [h])
      revert this; decide
    obtain ⟨hd, rfl, _⟩ := digitPart_plain hb h95
    cases hs with
    | none =>
      simp only [Bool.false_eq_true, if_false, Int.natCast_inj] at hz
      subst hz
      simpa using intOf_digits (digitPart_ne hb) hd
    | plus => exact absurd (hc 43 (by simp)) (by decide)
    | minus => exact absurd (hc 45 (by simp)) (by decide)

theorem intText_nonneg {t : PyStr} (hp : PlainInt t) {z : Int} (h : IntText t z) : 0 ≤ z := by
  obtain ⟨l, s, b, r, neg, v, k, rfl, hl, hr, hs, hb, hz⟩ := h
  cases hs with
  | none => simp at hz; omega
  | plus => simp at hz; omega
  | minus => exact absurd (hp 45 (by simp)) (by decide)

end Verif
