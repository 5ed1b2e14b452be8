import Verif.Lemmas.Json
import Verif.Spec.Num

/-
Numbers the library writes as text and reads again: `float(repr(x))` of non-negative numbers that are
written without exponent.
-/

namespace Verif
open Verif.Spec

theorem zpow_ten_mono {p q : Int} (h : p ≤ q) : (10 : Rat) ^ p ≤ 10 ^ q := by
  have e := zpow_ten_nat (q - p).toNat p
  rw [show ((q - p).toNat : Int) + p = q by omega] at e
  rw [← e]
  have h1 : (1 : Rat) ≤ ((10 ^ (q - p).toNat : Nat) : Rat) := by
    have : 1 ≤ 10 ^ (q - p).toNat := Nat.pow_pos (by omega)
    exact Rat.natCast_le_natCast.2 this
  have := Rat.mul_le_mul_of_nonneg_right h1 (Rat.le_of_lt (zpow_ten_pos p))
  grind

theorem natStr_lower {n : Nat} (h : 0 < n) : 10 ^ ((natStr n).length - 1) ≤ n := by
  rcases Nat.lt_or_ge n (10 ^ ((natStr n).length - 1)) with h1 | h1
  · rcases Nat.eq_zero_or_pos ((natStr n).length - 1) with h2 | h2
    · rw [h2] at h1 ⊢; omega
    · have := natStr_length n _ h2 h1
      omega
  · exact h1

/-- The decimal point of a number that is neither large nor small. -/
theorem point_range {x : Rat} (hx : 1 / 1000 ≤ x) (hx' : x < 10 ^ 16) {k : Nat} {p : Int}
    (h : rnd (mulPow10 k p) = x) : -4 < ((natStr k).length : Int) + p ∧ ((natStr k).length : Int) + p ≤ 16 := by
  rw [mulPow10_eq] at h
  constructor
  · apply Classical.byContradiction
    intro hc
    have h1 := Rat.natCast_lt_natCast.2 (natStr_bound k)
    have h2 : (k : Rat) * 10 ^ p ≤ 10 ^ (((natStr k).length : Int) + p) := by
      rw [← zpow_ten_nat]
      exact Rat.mul_le_mul_of_nonneg_right (Rat.le_of_lt h1) (Rat.le_of_lt (zpow_ten_pos p))
    have h3 := zpow_ten_mono (show ((natStr k).length : Int) + p ≤ -4 by omega)
    have h4 := rnd_mono (Rat.le_trans h2 h3)
    rw [h] at h4
    have h5 : rnd (10 ^ (-4 : Int)) < 1 / 1000 := by decide +kernel
    grind
  · apply Classical.byContradiction
    intro hc
    have hk : 0 < k := by
      rcases Nat.eq_zero_or_pos k with h0 | h0
      · rw [h0] at h
        have : ((0 : Nat) : Rat) * 10 ^ p = 0 := by
          have : ((0 : Nat) : Rat) = 0 := rfl
          rw [this]; grind
        rw [this, rnd_zero] at h
        grind
      · exact h0
    have h0 : 0 < (natStr k).length := List.length_pos_iff.2 (natStr_ne k)
    have h1 := Rat.natCast_le_natCast.2 (natStr_lower hk)
    have h2 : (10 : Rat) ^ ((((natStr k).length - 1 : Nat) : Int) + p) ≤ (k : Rat) * 10 ^ p := by
      rw [← zpow_ten_nat]
      exact Rat.mul_le_mul_of_nonneg_right h1 (Rat.le_of_lt (zpow_ten_pos p))
    have h3 := zpow_ten_mono (show (16 : Int) ≤ (((natStr k).length - 1 : Nat) : Int) + p by omega)
    have h4 := rnd_mono (Rat.le_trans h3 h2)
    rw [h] at h4
    have h5 : rnd (10 ^ (16 : Int)) = 10 ^ 16 := by decide +kernel
    rw [h5] at h4
    grind

/-- Digits before and after the decimal point. -/
structure Decimal (s w f : PyStr) : Prop where
  text : s = w ++ 46 :: f
  before : w ≠ []
  after : f ≠ []
  digits : ∀ c ∈ w, 48 ≤ c ∧ c ≤ 57
  digits' : ∀ c ∈ f, 48 ≤ c ∧ c ≤ 57
  lead : w.length = 1 ∨ w.head? ≠ some 48

theorem pointed_decimal {ds : PyStr} (hne : ds ≠ []) (hd : ∀ c ∈ ds, 48 ≤ c ∧ c ≤ 57) (hh : ds.head? ≠ some 48)
    {pt : Int} (h1 : -4 < pt) (h2 : pt ≤ 16) : ∃ w f, Decimal (pointed ds pt) w f := by
  have zeros : ∀ k, ∀ c ∈ List.replicate k 48, 48 ≤ c ∧ c ≤ 57 := by
    intro k c hc
    rw [List.mem_replicate] at hc
    omega
  unfold pointed
  rw [if_neg (by omega)]
  split
  · refine ⟨[48], List.replicate pt.natAbs 48 ++ ds, by simp, by simp, by simp [hne], by simp, ?_, .inl rfl⟩
    intro c hc
    rcases List.mem_append.1 hc with hc | hc
    · exact zeros _ c hc
    · exact hd c hc
  · split
    · refine ⟨ds ++ List.replicate (pt.toNat - ds.length) 48, [48], by simp, by simp [hne], by simp, ?_, by simp, .inr ?_⟩
      · intro c hc
        rcases List.mem_append.1 hc with hc | hc
        · exact hd c hc
        · exact zeros _ c hc
      · cases ds with
        | nil => exact absurd rfl hne
        | cons c cs => exact hh
    · refine ⟨ds.take pt.toNat, ds.drop pt.toNat, by simp, by simp [hne]; omega, by simp; omega,
        fun c hc => hd c (List.mem_of_mem_take hc), fun c hc => hd c (List.mem_of_mem_drop hc), .inr ?_⟩
      cases ds with
      | nil => exact absurd rfl hne
      | cons c cs =>
        obtain ⟨k, hk⟩ : ∃ k, pt.toNat = k + 1 := ⟨pt.toNat - 1, by omega⟩
        rw [hk]
        exact hh

theorem digits_of_range {ds : PyStr} (h : ∀ c ∈ ds, 48 ≤ c ∧ c ≤ 57) : Digits ds := fun c hc =>
  isDigit_ascii (mem_ascii.2 (h c hc))

/-- The library reads a decimal like the reader of JSON. -/
theorem decOf_decimal {s w f : PyStr} (h : Decimal s w f) :
    ∃ q, decOf s = some q ∧ readDecimal s = some (q, []) := by
  have hw := digits_of_range h.digits
  have hf := digits_of_range h.digits'
  have key := readDecimal_parts (w := w) (f := f) (e := none) (t := []) h.before h.digits h.lead h.digits'
    (by rintro _ _ ⟨⟩) trivial
  rw [if_neg h.after] at key
  simp only [expText, List.append_nil] at key
  rw [h.text]
  refine ⟨_, ?_, key⟩
  unfold decOf
  rw [splitC_append 46 _ _ (hw.ne (by decide)), splitC_absent 46 _ (hf.ne (by decide))]
  simp only
  rw [if_pos ⟨h.before, h.after, hw.all, hf.all⟩, decimalValue_digits (by
    intro c hc
    rcases List.mem_append.1 hc with hc | hc
    · exact h.digits c hc
    · exact h.digits' c hc), Rat.mkRat_eq_div, Rat.div_def]
  simp only [expValue, Int.zero_sub, Rat.zpow_neg, Rat.zpow_natCast, Rat.intCast_natCast, Rat.natCast_pow]
  rfl

theorem floatOf_decimal {s w f : PyStr} (h : Decimal s w f) {x : F64} (hr : readNumber s = some (x, [])) :
    floatOf s = some x := by
  obtain ⟨q, h1, h2⟩ := decOf_decimal h
  have hs : ∀ t, s ≠ 45 :: t := by
    rintro t rfl
    have e := h.text
    cases w with
    | nil => exact absurd rfl h.before
    | cons c w =>
      rw [List.cons_append, List.cons.injEq] at e
      have := h.digits c (by simp)
      omega
  unfold readNumber at hr
  split at hr
  · exact absurd rfl (hs _)
  · rw [h2] at hr
    simp only [Option.map_some, Option.some.injEq, Prod.mk.injEq, and_true] at hr
    unfold floatOf
    split
    · exact absurd rfl (hs _)
    · rw [h1, Option.map_some, hr]

/-- A number that is written without exponent and without sign. -/
def Written (x : F64) : Prop := x.sgn = false ∧ (x.val = 0 ∨ 1 / 1000 ≤ x.val ∧ x.val < 10 ^ 16)

theorem repr_decimal {x : F64} (hd : Double x) (h : Written x) : ∃ w f, Decimal (floatRepr x) w f := by
  obtain ⟨hs, h⟩ := h
  unfold floatRepr
  rw [hs, if_neg (by decide), List.nil_append]
  rcases h with h | ⟨h1, h2⟩
  · rw [if_pos h]
    exact ⟨[48], [48], rfl, by decide, by decide, by decide, by decide, .inl rfl⟩
  · have h0 : 0 < x.val := by grind
    rw [if_neg (by grind), if_neg (by grind)]
    have hr := shortest_reads h0 hd.1
    obtain ⟨p1, p2⟩ := point_range h1 h2 hr
    have hk : 0 < (shortest x.val).1 := by
      rcases Nat.eq_zero_or_pos (shortest x.val).1 with h0' | h0'
      · rw [mulPow10_eq, h0'] at hr
        have : ((0 : Nat) : Rat) * 10 ^ (shortest x.val).2 = 0 := by
          have : ((0 : Nat) : Rat) = 0 := rfl
          rw [this]; grind
        rw [this, rnd_zero] at hr
        grind
      · exact h0'
    exact pointed_decimal (natStr_ne _) (ascii_range (natStr_ascii _)) (natStr_head hk) p1 p2

/-- `float(repr(x))`. -/
theorem floatOf_repr {x : F64} (hd : Double x) (h : Written x) : floatOf (floatRepr x) = some x := by
  obtain ⟨w, f, hw⟩ := repr_decimal hd h
  have := readNumber_repr hd (t := []) trivial
  rw [List.append_nil] at this
  exact floatOf_decimal hw this

theorem Decimal.point {s w f : PyStr} (h : Decimal s w f) : 46 ∈ s := by rw [h.text]; simp

theorem Decimal.length {s w f : PyStr} (h : Decimal s w f) : 3 ≤ s.length := by
  have h1 := List.length_pos_iff.2 h.before
  have h2 := List.length_pos_iff.2 h.after
  rw [h.text]
  simp only [List.length_append, List.length_cons]
  omega

/-- `Distance(f"{x}")`. -/
theorem distance_repr {x : F64} (hd : Double x) (h : Written x) : distance (some (floatRepr x)) = some x := by
  obtain ⟨w, f, hw⟩ := repr_decimal hd h
  show floatOf (if floatRepr x = py!"9999" then py!"10000" else floatRepr x) = some x
  rw [if_neg (by
    intro e
    have := hw.point
    rw [e] at this
    revert this
    decide), floatOf_repr hd h]

/-- `Speed(f"{x}")`. -/
theorem speed_repr {x : F64} (hd : Double x) (h : Written x) : speed (some (floatRepr x)) = .ok (some x) := by
  obtain ⟨w, f, hw⟩ := repr_decimal hd h
  have hl := hw.length
  unfold speed
  simp only
  rw [if_neg (show ¬ floatRepr x = py!"//" by intro e; rw [e] at hl; revert hl; decide),
    if_neg (show ¬ (floatRepr x).length = 2 by omega), if_neg (show ¬ (floatRepr x).length < 3 by omega),
    floatOf_repr hd h]

theorem written_rnd {q : Rat} (h : q = 0 ∨ 1 / 100 ≤ q ∧ q ≤ 10 ^ 15) :
    Double ⟨rnd q, false⟩ ∧ Written ⟨rnd q, false⟩ := by
  refine ⟨⟨rnd_idem q, by simp⟩, ?_⟩
  rcases h with rfl | ⟨h1, h2⟩
  · rw [rnd_zero]
    exact ⟨by decide, .inl rfl⟩
  · have a := rnd_mono h1
    have b := rnd_mono h2
    have a' : 1 / 1000 < rnd (1 / 100) := by decide +kernel
    have b' : rnd (10 ^ 15) < 10 ^ 16 := by decide +kernel
    refine ⟨?_, .inr ⟨?_, ?_⟩⟩
    · have hp : 0 ≤ rnd q := Rat.le_trans (by decide +kernel) (Rat.le_trans (Rat.le_of_lt a') a)
      simp only [F64.sgn, Bool.or_false, decide_eq_false_iff_not]
      exact Rat.not_lt.2 hp
    · exact Rat.le_trans (Rat.le_of_lt a') a
    · generalize (10 : Rat) ^ 16 = u at *
      generalize rnd (10 ^ 15) = v at *
      show rnd q < u
      grind

theorem Spec.Rel.written {e x y : Rat} (h : Rel e x y) (he : e ≤ 1 / 2) (hy : y = 0 ∨ 1 / 10 ≤ y ∧ y ≤ 10 ^ 6) :
    x = 0 ∨ 1 / 100 ≤ x ∧ x ≤ 10 ^ 15 := by
  obtain ⟨h0, h1, h2⟩ := h
  rcases hy with rfl | ⟨hy1, hy2⟩
  · left
    rw [Rat.mul_zero] at h1 h2
    grind
  · right
    have h3 := Rat.mul_le_mul_of_nonneg_right he h0
    have h4 : (10 : Rat) ^ 6 * (3 / 2) ≤ 10 ^ 15 := by decide +kernel
    generalize (10 : Rat) ^ 6 = u at *
    generalize (10 : Rat) ^ 15 = v at *
    grind

/-- Digits times a factor. -/
theorem written_digits {n : Nat} {c : Rat} (hn : n ≤ 10000) (h1 : 1 / 100 ≤ c) (h2 : c ≤ 10000) :
    (n : Rat) * c = 0 ∨ 1 / 100 ≤ (n : Rat) * c ∧ (n : Rat) * c ≤ 10 ^ 15 := by
  rcases Nat.eq_zero_or_pos n with rfl | h0
  · left
    have : ((0 : Nat) : Rat) = 0 := rfl
    rw [this, Rat.zero_mul]
  · right
    have a : (1 : Rat) ≤ n := Rat.natCast_le_natCast.2 h0
    have b : (n : Rat) ≤ 10000 := by
      have := Rat.natCast_le_natCast.2 hn
      exact this
    have hc : 0 ≤ c := Rat.le_trans (by decide +kernel) h1
    have a' := Rat.mul_le_mul_of_nonneg_right a hc
    have b' := Rat.mul_le_mul_of_nonneg_right b hc
    have c' := Rat.mul_le_mul_of_nonneg_left h2 (show (0 : Rat) ≤ 10000 by decide)
    have d : (10000 : Rat) * 10000 ≤ 10 ^ 15 := by decide +kernel
    generalize (10 : Rat) ^ 15 = v at *
    grind

theorem pointed_length {ds : PyStr} (hne : ds ≠ []) (pt : Int) : 3 ≤ (pointed ds pt).length := by
  have h := List.length_pos_iff.2 hne
  unfold pointed
  split
  · have e : (if pt - 1 < 0 then [101, 45] else [101, 43] : PyStr).length = 2 := by split <;> rfl
    simp only [List.length_append, List.length_take, e]
    omega
  · split
    · simp only [List.length_append, List.length_cons, List.length_nil]
      omega
    · split
      · simp only [List.length_append, List.length_cons, List.length_nil]
        omega
      · simp only [List.length_append, List.length_take, List.length_cons, List.length_nil, List.length_drop]
        omega

theorem repr_length (x : F64) : 3 ≤ (floatRepr x).length := by
  unfold floatRepr
  rw [List.length_append]
  by_cases h : x.val = 0
  · rw [if_pos h]
    simp
  · rw [if_neg h]
    have := pointed_length (natStr_ne (shortest (if x.val < 0 then -x.val else x.val)).1)
      ((natStr (shortest (if x.val < 0 then -x.val else x.val)).1).length +
        (shortest (if x.val < 0 then -x.val else x.val)).2)
    exact Nat.le_trans this (Nat.le_add_left _ _)

end Verif
