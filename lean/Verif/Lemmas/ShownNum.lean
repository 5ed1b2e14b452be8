import Verif.Lemmas.Within
import Verif.Lemmas.Digits
import Verif.Lemmas.Squeeze
import Verif.Lemmas.Pressure
import Verif.Spec.GroupText

/-
The text of numbers.
-/

namespace Verif

open Spec

theorem padNat_one {k : Nat} (h : k < 10) : padNat 1 k = natStr k := by
  have : ∀ k < 10, padNat 1 k = natStr k := by decide +kernel
  exact this k h

theorem fmt1_tenths {v : Rat} (h : 0 ≤ v) :
    fmt1 ⟨v, false⟩ = tenths (rhe (v.num.natAbs * 10) v.den) := by
  unfold fmt1 fmtF tenths
  rw [F64.sgn_false h]
  simp only [Nat.pow_one, Bool.false_eq_true, if_false, List.nil_append]
  rw [padNat_one (Nat.mod_lt _ (by omega))]

theorem tenths_within {v : Rat} (h : 0 ≤ v) :
    Within (1 / 20) (((rhe (v.num.natAbs * 10) v.den : Nat) : Rat) / 10) v := by
  have := fixed_within 1 v h
  rw [Rat.mkRat_eq_div, Rat.intCast_natCast] at this
  have e1 : (1 : Rat) / (2 * 10 ^ 1) = 1 / 20 := by decide +kernel
  have e2 : (((10 ^ 1 : Nat)) : Rat) = 10 := rfl
  rw [e1, e2, Nat.pow_one] at this
  exact this

/-- A number close to `q` is shown as `q` rounded. -/
theorem fmt1_oneDecimal {v q : Rat} (h : 0 ≤ v) (hw : Within (1 / 10 ^ 9) v q) :
    OneDecimal q (fmt1 ⟨v, false⟩) :=
  ⟨_, fmt1_tenths h, (tenths_within h).trans hw⟩

/-- A number close to a number of tenths is shown as that. -/
theorem fmt1_near_tenths {v : Rat} {n : Nat} (h : 0 ≤ v) (hw : Within (1 / 10 ^ 7) v (n / 10)) :
    fmt1 ⟨v, false⟩ = tenths n := by
  rw [fmt1_tenths h]
  have h1 := (tenths_within h).trans hw
  generalize rhe (v.num.natAbs * 10) v.den = k at h1
  have hk : k = n := by
    have c1 : ((1 : Nat) : Rat) = 1 := rfl
    obtain ⟨h2, h3⟩ := h1
    have e : (1 : Rat) / 20 + 1 / 10 ^ 7 < 1 / 10 := by decide +kernel
    have a1 : (k : Rat) < ((n + 1 : Nat) : Rat) := by
      rw [Rat.natCast_add, c1]; grind
    have a2 : (n : Rat) < ((k + 1 : Nat) : Rat) := by
      rw [Rat.natCast_add, c1]; grind
    have b1 := Rat.natCast_lt_natCast.1 a1
    have b2 := Rat.natCast_lt_natCast.1 a2
    omega
  rw [hk]

/-- A number close to a whole number is shown as that. -/
theorem fmt1_near {v : Rat} {n : Nat} (h : 0 ≤ v) (hw : Within (1 / 10 ^ 7) v n) :
    fmt1 ⟨v, false⟩ = wholeText n := by
  rw [fmt1_near_tenths (n := 10 * n) h]
  · unfold tenths wholeText
    rw [Nat.mul_div_cancel_left _ (by omega), Nat.mul_mod_right]
    rw [List.append_assoc]
    rfl
  · have c10 : ((10 : Nat) : Rat) = 10 := rfl
    rw [Rat.natCast_mul, c10]
    have : (10 : Rat) * n / 10 = n := by grind
    rwa [this]

theorem fmt1_whole (n : Nat) : fmt1 (whole n) = wholeText n :=
  fmt1_near Rat.natCast_nonneg ((Within.refl _).mono (by decide +kernel))

theorem truthy_whole (n : Nat) : (whole n).truthy = decide (n ≠ 0) := by
  unfold F64.truthy whole
  rw [Bool.eq_iff_iff]
  simp [Rat.natCast_eq_zero_iff]

theorem numStrUnit_whole (unit : PyStr) (n : Nat) :
    numStrUnit (some (whole n)) unit = wholeMeasure unit n := by
  unfold numStrUnit wholeMeasure
  simp only [truthyO, truthy_whole, numStr, fmt1_whole]
  by_cases h : n = 0 <;> simp [h]

/-- A number close to `q`, and zero only if `q` is. -/
theorem numStrUnit_near {unit : PyStr} {v q : Rat} (h : 0 ≤ v) (hw : Within (1 / 10 ^ 9) v q)
    (hz : v = 0 ↔ q = 0) : Measure unit q (numStrUnit (some ⟨v, false⟩) unit) := by
  unfold Measure numStrUnit
  simp only [truthyO, F64.truthy, numStr]
  by_cases hq : q = 0
  · have hv := hz.2 hq
    subst hv
    rw [if_pos hq]
    rfl
  · rw [if_neg hq]
    have hv : v ≠ 0 := fun e => hq (hz.1 e)
    simp only [ne_eq, hv, not_false_eq_true, decide_true, if_true]
    exact ⟨_, fmt1_oneDecimal h hw, rfl⟩

/-- The same with a relative error. -/
theorem numStrUnit_rel {unit : PyStr} {e v q : Rat} (he : e < 1) (hr : Rel e v q)
    (hb : e * q ≤ 1 / 10 ^ 9) : Measure unit q (numStrUnit (some ⟨v, false⟩) unit) := by
  have h0 := hr.nonneg (by grind)
  refine numStrUnit_near h0 (hr.2.mono hb) ?_
  obtain ⟨hq, h1, h2⟩ := hr
  constructor
  · intro hv
    subst hv
    by_cases h : q = 0
    · exact h
    · have hp : 0 < q := by grind
      have := Rat.mul_lt_mul_of_pos_right he hp
      grind
  · intro hq
    subst hq
    grind

/-- A signed whole number. -/
theorem numStrUnit_signed (unit : PyStr) (neg : Bool) (n : Nat) :
    numStrUnit (some (signed neg n)) unit =
      (if neg then py!"-" else []) ++ wholeMeasure unit n := by
  cases neg with
  | false =>
    have : signed false n = whole n := by simp [signed, whole]
    rw [this, numStrUnit_whole]; rfl
  | true =>
    have hz : (n : Rat) = 0 ↔ n = 0 := Rat.natCast_eq_zero_iff
    have hs : (signed true n).sgn = true := by
      unfold F64.sgn signed
      by_cases h : n = 0
      · simp [h]
      · have : (0 : Rat) < n := natCast_pos (by omega)
        have : -(n : Rat) < 0 := by grind
        simp [this]
    have hf : fmt1 (signed true n) = py!"-" ++ wholeText n := by
      rw [← fmt1_whole]
      have hs' : (whole n).sgn = false := F64.sgn_false Rat.natCast_nonneg
      unfold fmt1 fmtF
      rw [hs, hs']
      simp [signed, whole]
    have ht : (signed true n).truthy = decide (n ≠ 0) := by
      unfold F64.truthy signed
      by_cases h : n = 0
      · simp [h]
      · have : (0 : Rat) < n := natCast_pos (by omega)
        have : -(n : Rat) ≠ 0 := by grind
        simp [this, h]
    unfold numStrUnit wholeMeasure
    simp only [truthyO, ht, numStr, hf]
    by_cases h : n = 0 <;> simp [h]

/-! ### Characters -/

theorem natStr_nonspace (n : Nat) : ∀ c ∈ natStr n, isSpace c = false := by
  intro c hc
  have := natStr_ascii n c hc
  rw [mem_ascii] at this
  have : ∀ c, 48 ≤ c → c ≤ 57 → isSpace c = false := by
    intro c h1 h2
    have t : ∀ c < 58, 48 ≤ c → isSpace c = false := by decide
    exact t c (by omega) h1
  exact this c ‹_ ∧ _›.1 ‹_ ∧ _›.2

theorem fmt1_nonspace (x : F64) : fmt1 x ≠ [] ∧ ∀ c ∈ fmt1 x, isSpace c = false := by
  unfold fmt1 fmtF
  refine ⟨by simp, ?_⟩
  intro c hc
  simp only [List.mem_append] at hc
  rcases hc with ((hc | hc) | hc) | hc
  · split at hc
    · simp at hc; subst hc; decide
    · simp at hc
  · exact natStr_nonspace _ c hc
  · simp at hc; subst hc; decide
  · rw [padNat_one (Nat.mod_lt _ (by omega))] at hc
    exact natStr_nonspace _ c hc

/-- A number with its unit has no superfluous blanks. -/
theorem numStrUnit_phrase (x : F64) {unit : PyStr} (hu : tidy unit = true) :
    phrase (numStrUnit (some x) unit) = true := by
  have := fmt1_nonspace x
  have h := phrase_of_all this.1 this.2
  unfold numStrUnit
  split
  · exact phrase_append h hu
  · exact h

end Verif
