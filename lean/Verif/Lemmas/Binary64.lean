import Verif.Spec.Binary64
import Verif.Lemmas.Repr

/-
The rounding of the model is the rounding of IEEE 754 as long as the result is in the range of the
normal numbers.
-/

namespace Verif
open Spec

theorem distance_self (a : Rat) : Spec.distance a a = 0 := by unfold Spec.distance; grind

theorem intCast_lt_rat {a b : Int} : (a : Rat) < (b : Rat) ↔ a < b := Rat.intCast_lt_intCast

theorem zpow_split {e f : Int} (h : e ≤ f) : (2 : Rat) ^ f = ((2 ^ (f - e).toNat : Int) : Rat) * 2 ^ e := by
  have h1 : f = (f - e) + e := by omega
  have h2 := Rat.zpow_add two_ne_zero (f - e) e
  rw [← h1, zpow_toNat (e := f - e) (by omega)] at h2
  rw [h2, Rat.intCast_pow]
  rfl

/-- Two numbers at the same distance whose last bits are zero have another one between them. -/
theorem between_even {y z : Rat} (hy : EvenBinary64 y) (hz : EvenBinary64 z) (h : y < z) :
    ∃ w, Binary64 w ∧ y < w ∧ w < z := by
  obtain ⟨m, e, rfl, m1, m2, e1, e2, me⟩ := hy
  obtain ⟨n, f, rfl, n1, n2, f1, f2, ne⟩ := hz
  by_cases hef : e ≤ f
  · have ht := zpow_two_pos e
    rw [zpow_split hef] at h ⊢
    have hlt : m < n * 2 ^ (f - e).toNat := by
      have : (m : Rat) * 2 ^ e < ((n * 2 ^ (f - e).toNat : Int) : Rat) * 2 ^ e := by
        rw [Rat.intCast_mul]; grind
      exact intCast_lt_rat.1 (Rat.lt_of_mul_lt_mul_right this (Rat.le_of_lt ht))
    have h2 : m + 2 ≤ n * 2 ^ (f - e).toNat := by
      have : (n * 2 ^ (f - e).toNat) % 2 = 0 := by
        rw [Int.mul_emod, ne]; simp
      omega
    have h2' : (m : Rat) + 2 ≤ n * ((2 ^ (f - e).toNat : Int) : Rat) := by
      have := Rat.intCast_le_intCast.2 h2
      rw [Rat.intCast_add, Rat.intCast_mul] at this
      exact this
    refine ⟨(m + 1 : Int) * 2 ^ e, ⟨m + 1, e, rfl, by omega, by omega, e1, e2⟩, ?_, ?_⟩
    · rw [Rat.intCast_add, Rat.intCast_one]; grind
    · rw [Rat.intCast_add, Rat.intCast_one]
      have := Rat.mul_le_mul_of_nonneg_right h2' (Rat.le_of_lt ht)
      grind
  · have hef : f ≤ e := by omega
    have ht := zpow_two_pos f
    rw [zpow_split hef] at h ⊢
    have hlt : m * 2 ^ (e - f).toNat < n := by
      have : ((m * 2 ^ (e - f).toNat : Int) : Rat) * 2 ^ f < (n : Rat) * 2 ^ f := by
        rw [Rat.intCast_mul]; grind
      exact intCast_lt_rat.1 (Rat.lt_of_mul_lt_mul_right this (Rat.le_of_lt ht))
    have h2 : m * 2 ^ (e - f).toNat + 2 ≤ n := by
      have : (m * 2 ^ (e - f).toNat) % 2 = 0 := by
        rw [Int.mul_emod, me]; simp
      omega
    have h2' : (m : Rat) * ((2 ^ (e - f).toNat : Int) : Rat) + 2 ≤ n := by
      have := Rat.intCast_le_intCast.2 h2
      rw [Rat.intCast_add, Rat.intCast_mul] at this
      exact this
    refine ⟨(n - 1 : Int) * 2 ^ f, ⟨n - 1, f, rfl, by omega, by omega, f1, f2⟩, ?_, ?_⟩
    · rw [Rat.intCast_sub, Rat.intCast_one]
      have := Rat.mul_le_mul_of_nonneg_right h2' (Rat.le_of_lt ht)
      grind
    · rw [Rat.intCast_sub, Rat.intCast_one]; grind

theorem rounded_unique {q y z : Rat} (hy : Rounded q y) (hz : Rounded q z) : y = z := by
  have key : ∀ {y z : Rat}, Rounded q y → Rounded q z → ¬ y < z := by
    intro y z hy hz h
    have e1 := hy.nearest z hz.format
    have e2 := hz.nearest y hy.format
    have e : Spec.distance z q = Spec.distance y q := by grind
    obtain ⟨w, hw, h1, h2⟩ := between_even (hy.tie z hz.format (by grind) e)
      (hz.tie y hy.format (by grind) e.symm) h
    have h3 := hy.nearest w hw
    unfold Spec.distance at *
    grind
  have := key hy hz
  have := key hz hy
  grind

theorem Spec.Binary64.neg {q : Rat} (h : Binary64 q) : Binary64 (-q) := by
  obtain ⟨m, e, rfl, m1, m2, e1, e2⟩ := h
  exact ⟨-m, e, by rw [Rat.intCast_neg]; grind, by omega, by omega, e1, e2⟩

theorem Spec.EvenBinary64.neg {q : Rat} (h : EvenBinary64 q) : EvenBinary64 (-q) := by
  obtain ⟨m, e, rfl, m1, m2, e1, e2, h⟩ := h
  exact ⟨-m, e, by rw [Rat.intCast_neg]; grind, by omega, by omega, e1, e2, by omega⟩

theorem distance_neg (a b : Rat) : Spec.distance (-a) b = Spec.distance a (-b) := by
  unfold Spec.distance; grind

theorem Spec.Rounded.neg {q y : Rat} (h : Rounded q y) : Rounded (-q) (-y) := by
  refine ⟨h.format.neg, fun z hz => ?_, fun z hz hn he => ?_⟩
  · have := h.nearest (-z) hz.neg
    rw [distance_neg] at this ⊢
    rwa [Rat.neg_neg]
  · refine (h.tie (-z) hz.neg (by grind) ?_).neg
    rw [distance_neg, he, distance_neg, Rat.neg_neg]

/-- What is known of a number rounded by the model; a tie is rounded to an even number of units. -/
theorem rnd_form_even (q : Rat) (h : 0 < q) : ∃ (k : Nat) (e : Int), rnd q = k * 2 ^ e ∧
    2 ^ 52 ≤ k ∧ k ≤ 2 ^ 53 ∧ 4503599627370496 * (2 : Rat) ^ e ≤ q ∧ q < 9007199254740992 * (2 : Rat) ^ e ∧
    2 * (k * 2 ^ e) ≤ 2 * q + (2 : Rat) ^ e ∧ 2 * q ≤ 2 * (k * 2 ^ e) + (2 : Rat) ^ e ∧
    ((2 * (k * 2 ^ e) = 2 * q + (2 : Rat) ^ e ∨ 2 * q = 2 * (k * 2 ^ e) + (2 : Rat) ^ e) → k % 2 = 0) := by
  obtain ⟨e, hn⟩ := rnd_pos q h
  have hd := q.den_pos
  obtain ⟨b1, b2⟩ := rhe_bounds q.num.toNat q.den hn hd
  obtain ⟨s1, s2⟩ := expo_spec q.num.toNat q.den hn hd
  obtain ⟨r1, r2⟩ := rndPos_error q.num.toNat q.den hd
  have hf : rndPos q.num.toNat q.den = (rhe (scale2 q.num.toNat q.den (expo q.num.toNat q.den)).1
      (scale2 q.num.toNat q.den (expo q.num.toNat q.den)).2 : Nat) * 2 ^ (expo q.num.toNat q.den) := by
    unfold rndPos
    exact mulPow2_eq _ _
  have hq := rat_mul_den q
  have hnum : ((q.num.toNat : Nat) : Rat) = q.num := by
    rw [← Rat.intCast_natCast, Int.toNat_of_nonneg (by omega)]
  have hd' : (0 : Rat) < q.den := natCast_pos hd
  refine ⟨_, _, e.trans hf, b1, b2, ?_⟩
  have even : (2 * rndPos q.num.toNat q.den = 2 * q + (2 : Rat) ^ (expo q.num.toNat q.den) ∨
      2 * q = 2 * rndPos q.num.toNat q.den + (2 : Rat) ^ (expo q.num.toNat q.den)) →
      rhe (scale2 q.num.toNat q.den (expo q.num.toNat q.den)).1
        (scale2 q.num.toNat q.den (expo q.num.toNat q.den)).2 % 2 = 0 := by
    rw [hf]
    have hs := scale2_eq q.num.toNat q.den (expo q.num.toNat q.den)
    have hp := scale2_pos q.num.toNat q.den hd (expo q.num.toNat q.den)
    rw [hnum, ← hq] at hs
    have ht := zpow_two_pos (expo q.num.toNat q.den)
    generalize expo q.num.toNat q.den = ex at *
    generalize (scale2 q.num.toNat q.den ex) = s at *
    obtain ⟨a, b⟩ := s
    simp only at hs hp ⊢
    have hb' := natCast_pos hp
    intro hh
    have key : 2 * (rhe a b * b) = 2 * a + b ∨ 2 * a = 2 * (rhe a b * b) + b := by
      have c2 : ((2 : Nat) : Rat) = 2 := rfl
      have hqa : q * b = (a : Rat) * 2 ^ ex := by
        refine rat_cancel hd' ?_
        grind
      rcases hh with hh | hh
      · left
        refine Rat.natCast_inj.1 ?_
        simp only [Rat.natCast_mul, Rat.natCast_add, c2]
        refine rat_cancel ht ?_
        grind
      · right
        refine Rat.natCast_inj.1 ?_
        simp only [Rat.natCast_mul, Rat.natCast_add, c2]
        refine rat_cancel ht ?_
        grind
    have h1 := Nat.div_add_mod a b
    have h2 := Nat.mod_lt a hp
    unfold rhe at key ⊢
    generalize a / b = q at *
    generalize a % b = r at *
    rw [Nat.mul_comm] at h1
    simp only at key ⊢
    split at key
    · omega
    · split at key
      · rw [Nat.add_mul] at key; omega
      · split at key
        · rw [if_neg (by omega), if_neg (by omega), if_pos (by omega)]; omega
        · rw [if_neg (by omega), if_neg (by omega), if_neg (by omega)]; omega
  rw [← hf]
  rw [hnum, ← hq] at s1 s2 r1 r2
  have c52 : ((2 ^ 52 : Nat) : Rat) = 4503599627370496 := by decide +kernel
  have c53 : ((2 ^ 53 : Nat) : Rat) = 9007199254740992 := by decide +kernel
  rw [c52] at s1
  rw [c53] at s2
  refine ⟨?_, ?_, ?_, ?_, even⟩
  · exact Rat.le_of_mul_le_mul_right (c := q.den) (by grind) hd'
  · exact Rat.lt_of_mul_lt_mul_right (c := q.den) (by grind) (Rat.le_of_lt hd')
  · exact Rat.le_of_mul_le_mul_right (c := q.den) (by grind) hd'
  · exact Rat.le_of_mul_le_mul_right (c := q.den) (by grind) hd'

theorem zpow_lt_imp {e f : Int} (h : (2 : Rat) ^ e < 2 ^ f) : e < f := by
  apply Classical.byContradiction
  intro hn
  have := zpow_two_le (e := f) (f := e) (by omega)
  grind

theorem rnd_rounded_pos {q : Rat} (h1 : smallestNormal ≤ q) (h2 : q ≤ largest) : Rounded q (rnd q) := by
  have hq : 0 < q := by
    have : (0 : Rat) < smallestNormal := zpow_two_pos _
    grind
  obtain ⟨k, e, hr, k1, k2, l, u, a, b, even⟩ := rnd_form_even q hq
  have ht := zpow_two_pos e
  have elo : -1074 ≤ e := by
    have : (2 : Rat) ^ (-1022 : Int) < 2 ^ (e + 53) := by
      have h3 : (2 : Rat) ^ (e + 53) = 2 ^ e * 9007199254740992 := by
        rw [Rat.zpow_add two_ne_zero]
        have : (2 : Rat) ^ (53 : Int) = 9007199254740992 := by decide +kernel
        rw [this]
      have : smallestNormal = (2 : Rat) ^ (-1022 : Int) := rfl
      grind
    have := zpow_lt_imp this
    omega
  have ehi : e ≤ 971 := by
    have : (2 : Rat) ^ (e + 52) < 2 ^ ((971 : Int) + 53) := by
      have h3 : (2 : Rat) ^ (e + 52) = 2 ^ e * 4503599627370496 := by
        rw [Rat.zpow_add two_ne_zero]
        have : (2 : Rat) ^ (52 : Int) = 4503599627370496 := by decide +kernel
        rw [this]
      have h4 : (2 : Rat) ^ ((971 : Int) + 53) = 2 ^ (971 : Int) * 9007199254740992 := by
        rw [Rat.zpow_add two_ne_zero]
        have : (2 : Rat) ^ (53 : Int) = 9007199254740992 := by decide +kernel
        rw [this]
      have ht' := zpow_two_pos 971
      unfold largest at h2
      grind
    have := zpow_lt_imp this
    omega
  have kint : ((k : Int) : Rat) = (k : Rat) := Rat.intCast_natCast k
  have top : k = 2 ^ 53 → e < 971 := by
    intro hk
    apply Classical.byContradiction
    intro he
    have he : e = 971 := by omega
    subst he
    subst hk
    have c53 : ((2 ^ 53 : Nat) : Rat) = 9007199254740992 := by decide +kernel
    rw [c53] at a even
    unfold largest at h2
    have hh : 2 * q + (2 : Rat) ^ (971 : Int) ≤ 2 * (9007199254740992 * 2 ^ (971 : Int)) := by grind
    grind
  have fmt : ∀ P : Int → Prop, P k → P (2 ^ 52) → ∃ m f : Int, rnd q = m * 2 ^ f ∧ -9007199254740992 < m ∧
      m < 9007199254740992 ∧ -1074 ≤ f ∧ f ≤ 971 ∧ P m := by
    intro P p1 p2
    by_cases hk : k = 2 ^ 53
    · refine ⟨2 ^ 52, e + 1, ?_, by decide, by decide, by omega, by have := top hk; omega, p2⟩
      rw [hr, hk, zpow_sub_one (e + 1), show e + 1 - 1 = e by omega]
      have c53 : ((2 ^ 53 : Nat) : Rat) = 9007199254740992 := by decide +kernel
      have c52 : ((2 ^ 52 : Int) : Rat) = 4503599627370496 := by decide +kernel
      rw [c53, c52]
      grind
    · exact ⟨k, e, by rw [hr, kint], by omega, by omega, elo, ehi, p1⟩
  -- every number of the format is a multiple of the unit, or below all of them
  have all : ∀ z, Binary64 z → (∃ j : Int, z = j * 2 ^ e) ∨ z < 4503599627370496 * 2 ^ e := by
    rintro z ⟨m, f, rfl, m1, m2, f1, f2⟩
    by_cases hef : e ≤ f
    · left
      exact ⟨m * 2 ^ (f - e).toNat, by rw [zpow_split hef, Rat.intCast_mul]; grind⟩
    · right
      have h3 := two_zpow_lt (e := f) (f := e) (by omega)
      have h4 := zpow_two_pos f
      have h5 : (m : Rat) < 9007199254740992 := by
        have := intCast_lt_rat.2 m2
        exact this
      have := Rat.mul_lt_mul_of_pos_right h5 h4
      grind
  have mult : ∀ j : Int, Spec.distance (rnd q) q ≤ Spec.distance (j * 2 ^ e) q ∧
      (j ≠ k → Spec.distance (j * 2 ^ e) q = Spec.distance (rnd q) q → k % 2 = 0) := by
    intro j
    rw [hr]
    rcases Int.lt_trichotomy j k with hj | hj | hj
    · have h5 : (j : Rat) + 1 ≤ k := by
        have := Rat.intCast_le_intCast.2 (show j + 1 ≤ (k : Int) by omega)
        rwa [Rat.intCast_add, Rat.intCast_one, kint] at this
      have h6 := Rat.mul_le_mul_of_nonneg_right h5 (Rat.le_of_lt ht)
      refine ⟨?_, fun _ he => even ?_⟩
      · unfold Spec.distance; grind
      · unfold Spec.distance at he; grind
    · subst hj
      rw [kint]
      exact ⟨Rat.le_refl, fun h => absurd rfl h⟩
    · have h5 : (k : Rat) + 1 ≤ j := by
        have := Rat.intCast_le_intCast.2 (show (k : Int) + 1 ≤ j by omega)
        rwa [Rat.intCast_add, Rat.intCast_one, kint] at this
      have h6 := Rat.mul_le_mul_of_nonneg_right h5 (Rat.le_of_lt ht)
      refine ⟨?_, fun _ he => even ?_⟩
      · unfold Spec.distance; grind
      · unfold Spec.distance at he; grind
  have low : ∀ z : Rat, z < 4503599627370496 * 2 ^ e → Spec.distance (rnd q) q < Spec.distance z q := by
    intro z hz
    have := (mult 4503599627370496).1
    have c : ((4503599627370496 : Int) : Rat) = 4503599627370496 := rfl
    rw [c] at this
    unfold Spec.distance at *
    grind
  refine ⟨?_, fun z hz => ?_, fun z hz hn he => ?_⟩
  · obtain ⟨m, f, h3, h4, h5, h6, h7, -⟩ := fmt (fun _ => True) trivial trivial
    exact ⟨m, f, h3, h4, h5, h6, h7⟩
  · rcases all z hz with ⟨j, rfl⟩ | hz
    · exact (mult j).1
    · exact Rat.le_of_lt (low z hz)
  · rcases all z hz with ⟨j, rfl⟩ | hz
    · have hk := (mult j).2 (by rintro rfl; exact hn (by rw [hr, kint])) he
      obtain ⟨m, f, h3, h4, h5, h6, h7, h8⟩ := fmt (fun m => m % 2 = 0) (by omega) (by decide)
      exact ⟨m, f, h3, h4, h5, h6, h7, h8⟩
    · have := low z hz
      grind

theorem rounded_zero : Rounded 0 0 := by
  refine ⟨⟨0, 0, by decide +kernel, by decide, by decide, by decide, by decide⟩, fun z _ => ?_, fun z _ hn he => ?_⟩
  · unfold Spec.distance; grind
  · unfold Spec.distance at he; grind

/-- The model rounds as IEEE 754 does. -/
theorem rnd_rounded {q : Rat} (h : InRange q) : Rounded q (rnd q) := by
  rcases h with rfl | h | h
  · rw [rnd_zero]; exact rounded_zero
  · exact rnd_rounded_pos h.1 h.2
  · have := (rnd_rounded_pos h.1 h.2).neg
    rwa [rnd_neg, Rat.neg_neg, Rat.neg_neg] at this

theorem rounded_iff {q y : Rat} (h : InRange q) : Rounded q y ↔ y = rnd q :=
  ⟨fun hy => rounded_unique hy (rnd_rounded h), fun e => e ▸ rnd_rounded h⟩

end Verif
