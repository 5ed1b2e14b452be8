import Verif.Lemmas.Float
import Verif.Spec.Num

/-
Propagation of absolute and relative errors.
-/

namespace Verif
open Spec

theorem Spec.Within.refl (x : Rat) : Within 0 x x := by constructor <;> grind

theorem Spec.Within.symm {e x y : Rat} (h : Within e x y) : Within e y x := ⟨h.2, h.1⟩

theorem Spec.Within.mono {e f x y : Rat} (h : Within e x y) (hf : e ≤ f) : Within f x y := by
  obtain ⟨h1, h2⟩ := h
  constructor <;> grind

theorem Spec.Within.trans {e f x y z : Rat} (h : Within e x y) (h' : Within f y z) :
    Within (e + f) x z := by
  obtain ⟨h1, h2⟩ := h
  obtain ⟨h3, h4⟩ := h'
  constructor <;> grind

theorem Spec.Within.mul_left {e x y : Rat} (c : Rat) (hc : 0 ≤ c) (h : Within e x y) :
    Within (c * e) (c * x) (c * y) := by
  obtain ⟨h1, h2⟩ := h
  have g1 := Rat.mul_le_mul_of_nonneg_left h1 hc
  have g2 := Rat.mul_le_mul_of_nonneg_left h2 hc
  constructor <;> grind

theorem Spec.Within.mul_right {e x y : Rat} (c : Rat) (hc : 0 ≤ c) (h : Within e x y) :
    Within (e * c) (x * c) (y * c) := by
  have := Within.mul_left c hc h
  rwa [Rat.mul_comm c e, Rat.mul_comm c x, Rat.mul_comm c y] at this

/-- The unit of relative rounding error, `2^-53`. -/
def ulp : Rat := 1 / 9007199254740992

theorem rnd_relW (q : Rat) (h : 0 ≤ q) : Rel ulp (rnd q) q := by
  obtain ⟨h1, h2⟩ := rnd_rel q h
  have c : (2 : Rat) ^ 53 = 9007199254740992 := by decide +kernel
  rw [c] at h1 h2
  unfold ulp
  refine ⟨h, ?_, ?_⟩ <;> grind

theorem rnd_within {q B : Rat} (h : 0 ≤ q) (hB : q ≤ B) : Within (ulp * B) (rnd q) q := by
  refine (rnd_relW q h).2.mono ?_
  exact Rat.mul_le_mul_of_nonneg_left hB (by decide +kernel)

/-- Composition of relative errors. -/
theorem Spec.Rel.trans {e f x y z : Rat} (he : 0 ≤ e) (h : Rel e x y) (h' : Rel f y z) :
    Rel (e + f + e * f) x z := by
  obtain ⟨hy, h1, h2⟩ := h
  obtain ⟨hz, h3, h4⟩ := h'
  have h5 : y ≤ z + f * z := by grind
  have h6 := Rat.mul_le_mul_of_nonneg_left h5 he
  refine ⟨hz, ?_, ?_⟩ <;> grind

theorem Spec.Rel.mono {e f x y : Rat} (h : Rel e x y) (hf : e ≤ f) : Rel f x y := by
  refine ⟨h.1, h.2.mono ?_⟩
  exact Rat.mul_le_mul_of_nonneg_right hf h.1

theorem Spec.Rel.refl {x : Rat} (h : 0 ≤ x) : Rel 0 x x := by
  refine ⟨h, ?_, ?_⟩ <;> grind

theorem Spec.Rel.mul_left {e x y c : Rat} (hc : 0 ≤ c) (h : Rel e x y) : Rel e (c * x) (c * y) := by
  refine ⟨Rat.mul_nonneg hc h.1, ?_⟩
  have := h.2.mul_left c hc
  rwa [show c * (e * y) = e * (c * y) by grind] at this

theorem Spec.Rel.mul_right {e x y c : Rat} (hc : 0 ≤ c) (h : Rel e x y) : Rel e (x * c) (y * c) := by
  have := Rel.mul_left hc h
  rwa [Rat.mul_comm c x, Rat.mul_comm c y] at this

theorem Spec.Rel.nonneg {e x y : Rat} (he : e ≤ 1) (h : Rel e x y) : 0 ≤ x := by
  obtain ⟨hy, h1, h2⟩ := h
  have := Rat.mul_le_mul_of_nonneg_right he hy
  grind

/-- Rounding after an operation adds one unit of relative error. -/
theorem Spec.Rel.rnd {e x y : Rat} (he : e ≤ 1) (h : Rel e x y) :
    Rel (ulp + e + ulp * e) (rnd x) y :=
  Rel.trans (by decide +kernel) (rnd_relW x (h.nonneg he)) h

theorem mkRat_nat_nonneg (a b : Nat) : 0 ≤ mkRat a b := by
  by_cases hb : b = 0
  · subst hb; simp
  · have hp : (0 : Rat) < b := natCast_pos (by omega)
    rw [Rat.mkRat_eq_div, Rat.intCast_natCast]
    have ha : (0 : Rat) ≤ a := Rat.natCast_nonneg
    generalize (a : Rat) = x at *
    generalize (b : Rat) = y at *
    refine Rat.le_of_mul_le_mul_right (c := y) ?_ hp
    rw [Rat.div_mul_cancel (by grind)]
    grind

/-- Rounding to `N` decimals. -/
theorem fixed_within (N : Nat) (x : Rat) (hx : 0 ≤ x) :
    Within (1 / (2 * 10 ^ N)) (mkRat (rhe (x.num.natAbs * 10 ^ N) x.den) (10 ^ N)) x := by
  have hd := natCast_pos x.den_pos
  obtain ⟨h1, h2⟩ := rhe_spec (x.num.natAbs * 10 ^ N) x.den x.den_pos
  have hn : 0 ≤ x.num := Rat.num_nonneg.2 hx
  have hnum : ((x.num.natAbs : Nat) : Rat) = x.num := by
    rw [← Rat.intCast_natCast, Int.natAbs_of_nonneg hn]
  have h1' := (Rat.natCast_le_natCast).2 h1
  have h2' := (Rat.natCast_le_natCast).2 h2
  simp only [Rat.natCast_mul, Rat.natCast_add, Rat.natCast_pow, hnum, ← rat_mul_den x] at h1' h2'
  rw [Rat.mkRat_eq_div]
  generalize hk : rhe (x.num.natAbs * 10 ^ N) x.den = k at *
  have c10 : ((10 : Nat) : Rat) = 10 := rfl
  have c2 : ((2 : Nat) : Rat) = 2 := rfl
  rw [c10, c2] at h1' h2'
  have e1 : ((k : Int) : Rat) = (k : Rat) := Rat.intCast_natCast k
  rw [e1, Rat.natCast_pow, c10]
  have hp : (0 : Rat) < 10 ^ N := Rat.pow_pos (by decide +kernel)
  generalize (10 : Rat) ^ N = P at *
  generalize (x.den : Rat) = d at *
  generalize (k : Rat) = kk at *
  have hPd := Rat.mul_pos hp hd
  have hinv : P * (1 / P) = 1 := by grind
  have hdiv : kk / P = kk * (1 / P) := by grind
  have e2 : 1 / (2 * P) * (2 * (P * d)) = d := by grind
  have e3 : kk / P * (2 * (P * d)) = 2 * (kk * d) := by grind
  have h2Pd : (0 : Rat) < 2 * (P * d) := by grind
  constructor
  · refine Rat.le_of_mul_le_mul_right (c := 2 * (P * d)) ?_ h2Pd
    have : (kk / P - x) * (2 * (P * d)) = 2 * (kk * d) - x * (2 * (P * d)) := by
      grind
    rw [this, e2]
    grind
  · refine Rat.le_of_mul_le_mul_right (c := 2 * (P * d)) ?_ h2Pd
    have : (x - kk / P) * (2 * (P * d)) = x * (2 * (P * d)) - 2 * (kk * d) := by
      grind
    rw [this, e2]
    grind

end Verif
