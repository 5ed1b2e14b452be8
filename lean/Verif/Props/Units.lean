import Verif.Lemmas.Within
import Verif.Model.MetarGroups

/-
Unit conversions (C49).
-/

namespace Verif.Props
open Verif Spec

/-- Rounding an arbitrary number of magnitude at most `B`. -/
theorem rnd_withinS {q B : Rat} (h1 : -B ≤ q) (h2 : q ≤ B) : Within (ulp * B) (rnd q) q := by
  by_cases h : 0 ≤ q
  · exact rnd_within h h2
  · have := rnd_within (q := -q) (B := B) (by grind) (by grind)
    rw [rnd_neg] at this
    obtain ⟨a, b⟩ := this
    constructor <;> grind

theorem le_abs (x : Rat) : x ≤ x.abs ∧ -x.abs ≤ x ∧ 0 ≤ x.abs := by
  by_cases h : 0 ≤ x
  · rw [Rat.abs_of_nonneg h]; grind
  · rw [Rat.abs_of_nonpos (by grind)]; grind

/-- Multiplication by a constant close to `r` is close to multiplication by `r`. -/
theorem factor_close (c : F64) (r e f : Rat) (hr : 0 ≤ r) (hc0 : 0 ≤ c.val)
    (h : Within (e * r) c.val r) (hf : ulp * (1 + e) + e ≤ f) (x : F64) :
    Within (f * (r * x.val.abs)) (x.mul c).val (r * x.val) := by
  obtain ⟨a1, a2, a3⟩ := le_abs x.val
  have hv : (x.mul c).val = rnd (x.val * c.val) := rfl
  rw [hv]
  generalize x.val = v at *
  generalize v.abs = y at *
  generalize c.val = k at *
  have hq1 : v * k ≤ y * k := Rat.mul_le_mul_of_nonneg_right a1 hc0
  have hq2 : -(y * k) ≤ v * k := by
    have := Rat.mul_le_mul_of_nonneg_right a2 hc0
    grind
  have w1 := rnd_withinS hq2 hq1
  obtain ⟨h1, h2⟩ := h
  -- k ≤ (1 + e) r
  have hk : k ≤ (1 + e) * r := by grind
  have hyk : y * k ≤ y * ((1 + e) * r) := Rat.mul_le_mul_of_nonneg_left hk a3
  have hu := Rat.mul_le_mul_of_nonneg_left hyk (show (0 : Rat) ≤ ulp by decide +kernel)
  -- |v k - v r| ≤ y e r
  have g1 := Rat.mul_le_mul_of_nonneg_left h1 (show 0 ≤ y - v by grind)
  have g2 := Rat.mul_le_mul_of_nonneg_left h2 (show 0 ≤ y - v by grind)
  have g3 := Rat.mul_le_mul_of_nonneg_left h1 (show 0 ≤ y + v by grind)
  have g4 := Rat.mul_le_mul_of_nonneg_left h2 (show 0 ≤ y + v by grind)
  have hfin := Rat.mul_le_mul_of_nonneg_right hf (Rat.mul_nonneg hr a3)
  obtain ⟨w2, w3⟩ := w1
  generalize rnd (v * k) = z at *
  constructor <;> grind

theorem factor_mono (c : F64) (hc : 0 ≤ c.val) {x y : F64} (h : x.val ≤ y.val) :
    (x.mul c).val ≤ (y.mul c).val := by
  exact rnd_mono (Rat.mul_le_mul_of_nonneg_right h hc)

/-- A conversion keeps missing values missing, is monotone, and multiplies by `ratio` up to the
relative error `tol`. -/
structure Converts (f : Option F64 → Option F64) (ratio tol : Rat) : Prop where
  missing : f none = none
  close : ∀ x : F64, ∃ y, f (some x) = some y ∧
    Within (tol * (ratio * x.val.abs)) y.val (ratio * x.val)
  monotone : ∀ x y x' y' : F64, f (some x) = some x' → f (some y) = some y' → x.val ≤ y.val →
    x'.val ≤ y'.val

theorem converts_of (c : F64) (r e tol : Rat)
    (h : 0 ≤ r ∧ 0 ≤ c.val ∧ Within (e * r) c.val r ∧ ulp * (1 + e) + e ≤ tol) :
    Converts (fun v => converted v c) r tol where
  missing := rfl
  close x := ⟨x.mul c, rfl, factor_close c r e tol h.1 h.2.1 h.2.2.1 h.2.2.2 x⟩
  monotone x y x' y' hx hy hxy := by
    simp only [converted, Option.map_some, Option.some.injEq] at hx hy
    subst hx; subst hy
    exact factor_mono c h.2.1 hxy

/-- The conversions of the library by one factor, with the factors defined by the units: the foot is
0.3048 m, the sea mile 1852 m, the bar 1000 hPa, the atmosphere 1013.25 hPa, the knot one sea mile
per hour. -/
def exactUnits : List ((Option F64 → Option F64) × Rat) :=
  [(inKilometers, 1 / 1000), (inSeaMiles, 1 / 1852), (inFeet, 1 / 0.3048),
   (fun v => SeaState.inDecimeters ⟨none, none, none, v⟩, 10),
   (fun v => SeaState.inCentimeters ⟨none, none, none, v⟩, 100),
   (inMbar, 1), (inBar, 1 / 1000), (inAtm, 1 / 1013.25), (inKph, 1.852)]

/-- C49. Conversions between units with an exact ratio are correct up to rounding: relative error
below 1e-15. -/
theorem C49_exact_units : ∀ u ∈ exactUnits, Converts u.1 u.2 (1 / 1000000000000000) := by
  intro u hu
  simp only [exactUnits, List.mem_cons, List.not_mem_nil, or_false] at hu
  rcases hu with rfl | rfl | rfl | rfl | rfl | rfl | rfl | rfl | rfl
  · exact converts_of Conv.M_TO_KM _ (2 * ulp) _ (by decide +kernel)
  · exact converts_of Conv.M_TO_SMI _ (6 * ulp) _ (by decide +kernel)
  · exact converts_of Conv.M_TO_FT _ (4 * ulp) _ (by decide +kernel)
  · exact converts_of Conv.M_TO_DM _ 0 _ (by decide +kernel)
  · exact converts_of Conv.M_TO_CM _ 0 _ (by decide +kernel)
  · exact converts_of Conv.HPA_TO_MBAR _ 0 _ (by decide +kernel)
  · exact converts_of Conv.HPA_TO_BAR _ (2 * ulp) _ (by decide +kernel)
  · exact converts_of Conv.HPA_TO_ATM _ (2 * ulp) _ (by decide +kernel)
  · exact converts_of Conv.KNOT_TO_KPH _ (2 * ulp) _ (by decide +kernel)

/-- The conversions whose factor is declared as an approximation, with the true ratio of the units
and the accuracy of the declared factor. The ratio of radians is given to 19 digits of pi; the inch
of mercury is 33.863886666667 hPa, the mile 1609.344 m, the inch 0.0254 m. -/
def approximateUnits : List ((Option F64 → Option F64) × Rat × Rat) :=
  [(fun v => Direction.inRadians ⟨v, false⟩, 3.141592653589793238 / 180, 1 / 1000000000000000),
   (fun v => Direction.inGradians ⟨v, false⟩, 10 / 9, 1 / 100000000),
   (inMps, 1852 / 3600, 1 / 100000000),
   (inMiph, 1852 / 1609.344, 1 / 1000000),
   (inInHg, 1 / 33.863886666667, 1 / 1000000),
   (fun v => SeaState.inInches ⟨none, none, none, v⟩, 1 / 0.0254, 1 / 1000000)]

/-- C49. Conversions with an approximate factor are correct up to the accuracy of the factor. -/
theorem C49_approximate_units : ∀ u ∈ approximateUnits, Converts u.1 u.2.1 u.2.2 := by
  intro u hu
  simp only [approximateUnits, List.mem_cons, List.not_mem_nil, or_false] at hu
  rcases hu with rfl | rfl | rfl | rfl | rfl | rfl
  · exact converts_of Conv.DEGREES_TO_RADIANS _ (4 * ulp) _ (by decide +kernel)
  · exact converts_of Conv.DEGREES_TO_GRADIANS _ (1 / 900000000) _ (by decide +kernel)
  · exact converts_of Conv.KNOT_TO_MPS _ (1 / 110000000) _ (by decide +kernel)
  · exact converts_of Conv.KNOT_TO_MIPH _ (1 / 1100000) _ (by decide +kernel)
  · exact converts_of Conv.HPA_TO_INHG _ (1 / 1100000) _ (by decide +kernel)
  · exact converts_of Conv.M_TO_IN _ (1 / 1100000) _ (by decide +kernel)

/-- A temperature conversion `x ↦ a x + b` keeps missing values missing, is monotone, and correct
up to the fraction 1e-15 of `a |x| + b`. -/
structure ConvertsTemp (f : Option F64 → Option F64) (a b : Rat) : Prop where
  missing : f none = none
  close : ∀ x : F64, ∃ y, f (some x) = some y ∧
    Within (1 / 1000000000000000 * (a * x.val.abs + b)) y.val (a * x.val + b)
  monotone : ∀ x y x' y' : F64, f (some x) = some x' → f (some y) = some y' → x.val ≤ y.val →
    x'.val ≤ y'.val

theorem lit_close : Within (ulp * 273.15) (F64.lit 273.15).val 273.15 ∧
    Within (ulp * 491.67) (F64.lit 491.67).val 491.67 ∧ (F64.ofNat 32).val = 32 ∧
    (F64.ofNat 9).val = 9 ∧ (F64.ofNat 5).val = 5 := by decide +kernel

/-- Error of `(t * 9 / 5) + k`. -/
theorem nine_fifths (x k : F64) (b : Rat) (hb : 0 ≤ b) (hk : Within (ulp * b) k.val b) :
    Within (1 / 1000000000000000 * (9 / 5 * x.val.abs + b))
      (F64.add (F64.div (F64.mul x (F64.ofNat 9)) (F64.ofNat 5)) k).val (9 / 5 * x.val + b) := by
  obtain ⟨a1, a2, a3⟩ := le_abs x.val
  obtain ⟨-, -, -, h9, h5⟩ := lit_close
  have e : (F64.add (F64.div (F64.mul x (F64.ofNat 9)) (F64.ofNat 5)) k).val =
      rnd (rnd (rnd (x.val * 9) / 5) + k.val) := by
    show rnd (rnd (rnd (x.val * (F64.ofNat 9).val) / (F64.ofNat 5).val) + k.val) = _
    rw [h9, h5]
  rw [e]
  have hu : ulp = 1 / 9007199254740992 := rfl
  rw [hu] at hk
  generalize x.val = v at *
  generalize v.abs = y at *
  have w1 := rnd_withinS (q := v * 9) (B := 9 * y) (by grind) (by grind)
  rw [hu] at w1
  generalize rnd (v * 9) = p at *
  obtain ⟨p1, p2⟩ := w1
  have w2 := rnd_withinS (q := p / 5) (B := 2 * y) (by grind) (by grind)
  rw [hu] at w2
  generalize rnd (p / 5) = q at *
  obtain ⟨q1, q2⟩ := w2
  obtain ⟨k1, k2⟩ := hk
  generalize k.val = c at *
  have w3 := rnd_withinS (q := q + c) (B := (9 / 5 * y + b) * (11 / 10)) (by grind) (by grind)
  rw [hu] at w3
  generalize rnd (q + c) = z at *
  obtain ⟨z1, z2⟩ := w3
  constructor <;> grind

theorem nine_fifths_mono (x y k : F64) (h : x.val ≤ y.val) :
    (F64.add (F64.div (F64.mul x (F64.ofNat 9)) (F64.ofNat 5)) k).val ≤
      (F64.add (F64.div (F64.mul y (F64.ofNat 9)) (F64.ofNat 5)) k).val := by
  obtain ⟨-, -, -, h9, h5⟩ := lit_close
  show rnd (rnd (rnd (x.val * (F64.ofNat 9).val) / (F64.ofNat 5).val) + k.val) ≤
    rnd (rnd (rnd (y.val * (F64.ofNat 9).val) / (F64.ofNat 5).val) + k.val)
  rw [h9, h5]
  have h1 : rnd (x.val * 9) ≤ rnd (y.val * 9) := rnd_mono (by grind)
  have h2 : rnd (rnd (x.val * 9) / 5) ≤ rnd (rnd (y.val * 9) / 5) := rnd_mono (by grind)
  exact rnd_mono (by grind)

/-- C49. The temperature scales: kelvin is `t + 273.15`, Fahrenheit `9/5 t + 32`, Rankine
`9/5 t + 491.67`. -/
theorem C49_temperatures : ConvertsTemp inKelvin 1 273.15 ∧ ConvertsTemp inFahrenheit (9 / 5) 32 ∧
    ConvertsTemp inRankine (9 / 5) 491.67 := by
  obtain ⟨hk, hr, h32, -, -⟩ := lit_close
  refine ⟨⟨rfl, fun x => ⟨_, rfl, ?_⟩, ?_⟩, ⟨rfl, fun x => ⟨_, rfl, ?_⟩, ?_⟩,
    ⟨rfl, fun x => ⟨_, rfl, ?_⟩, ?_⟩⟩
  · obtain ⟨a1, a2, a3⟩ := le_abs x.val
    show Within _ (rnd (x.val + (F64.lit 273.15).val)) _
    have hu : ulp = 1 / 9007199254740992 := rfl
    rw [hu] at hk
    generalize x.val = v at *
    generalize v.abs = y at *
    generalize (F64.lit 273.15).val = c at *
    obtain ⟨k1, k2⟩ := hk
    have w := rnd_withinS (q := v + c) (B := y + 274) (by grind) (by grind)
    rw [hu] at w
    generalize rnd (v + c) = z at *
    obtain ⟨z1, z2⟩ := w
    constructor <;> grind
  · intro x y x' y' hx hy h
    simp only [inKelvin, convertedBy, Option.map_some, Option.some.injEq] at hx hy
    subst hx; subst hy
    exact rnd_mono (by grind)
  · exact nine_fifths x _ 32 (by decide +kernel) (by rw [h32]; decide +kernel)
  · intro x y x' y' hx hy h
    simp only [inFahrenheit, convertedBy, Option.map_some, Option.some.injEq] at hx hy
    subst hx; subst hy
    exact nine_fifths_mono x y _ h
  · exact nine_fifths x _ 491.67 (by decide +kernel) hr
  · intro x y x' y' hx hy h
    simp only [inRankine, convertedBy, Option.map_some, Option.some.injEq] at hx hy
    subst hx; subst hy
    exact nine_fifths_mono x y _ h

/-- 3000 m in feet, -5 degrees in Fahrenheit. -/
example : (inFeet (some (F64.ofNat 3000))).map (fun x => decide (Within (1 / 1000000000) x.val (3000 / 0.3048))) =
    some true := by decide +kernel
example : (inFahrenheit (some ⟨-5, false⟩)).map (·.val) = some 23 := by decide +kernel

end Verif.Props
