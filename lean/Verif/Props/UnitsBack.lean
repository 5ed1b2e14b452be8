import Verif.Props.Units

/-
Conversions of temperatures back to degrees Celsius, and there and back (C80).
-/

namespace Verif.Props
open Verif Spec

/-- A conversion `x ↦ a (x - b)` is correct up to the fraction 1e-15 of `a (|x| + b)`, and
monotone. -/
structure ConvertsBack (f : F64 → F64) (a b : Rat) : Prop where
  close : ∀ x : F64,
    Within (1 / 1000000000000000 * (a * (x.val.abs + b))) (f x).val (a * (x.val - b))
  monotone : ∀ x y : F64, x.val ≤ y.val → (f x).val ≤ (f y).val

/-- Error of `(t - k) * 5 / 9`. -/
theorem five_ninths (x k : F64) (b : Rat) (hb : 0 ≤ b) (hk : Within (ulp * b) k.val b) :
    Within (1 / 1000000000000000 * (5 / 9 * (x.val.abs + b)))
      (F64.div (F64.mul (F64.sub x k) (F64.ofNat 5)) (F64.ofNat 9)).val (5 / 9 * (x.val - b)) := by
  obtain ⟨a1, a2, a3⟩ := le_abs x.val
  obtain ⟨-, -, -, h9, h5⟩ := lit_close
  have e : (F64.div (F64.mul (F64.sub x k) (F64.ofNat 5)) (F64.ofNat 9)).val =
      rnd (rnd (rnd (x.val - k.val) * 5) / 9) := by
    show rnd (rnd (rnd (x.val - k.val) * (F64.ofNat 5).val) / (F64.ofNat 9).val) = _
    rw [h9, h5]
  rw [e]
  have hu : ulp = 1 / 9007199254740992 := rfl
  rw [hu] at hk
  generalize x.val = v at *
  generalize v.abs = y at *
  obtain ⟨k1, k2⟩ := hk
  generalize k.val = c at *
  have w1 := rnd_withinS (q := v - c) (B := (y + b) * (11 / 10)) (by grind) (by grind)
  rw [hu] at w1
  generalize rnd (v - c) = p at *
  obtain ⟨p1, p2⟩ := w1
  have w2 := rnd_withinS (q := p * 5) (B := (y + b) * (12 / 10) * 5) (by grind) (by grind)
  rw [hu] at w2
  generalize rnd (p * 5) = q at *
  obtain ⟨q1, q2⟩ := w2
  have w3 := rnd_withinS (q := q / 9) (B := (y + b) * (13 / 10) * 5 / 9) (by grind) (by grind)
  rw [hu] at w3
  generalize rnd (q / 9) = z at *
  obtain ⟨z1, z2⟩ := w3
  constructor <;> grind

theorem five_ninths_mono (x y k : F64) (h : x.val ≤ y.val) :
    (F64.div (F64.mul (F64.sub x k) (F64.ofNat 5)) (F64.ofNat 9)).val ≤
      (F64.div (F64.mul (F64.sub y k) (F64.ofNat 5)) (F64.ofNat 9)).val := by
  obtain ⟨-, -, -, h9, h5⟩ := lit_close
  show rnd (rnd (rnd (x.val - k.val) * (F64.ofNat 5).val) / (F64.ofNat 9).val) ≤
    rnd (rnd (rnd (y.val - k.val) * (F64.ofNat 5).val) / (F64.ofNat 9).val)
  rw [h9, h5]
  have h1 : rnd (x.val - k.val) ≤ rnd (y.val - k.val) := rnd_mono (by grind)
  have h2 : rnd (rnd (x.val - k.val) * 5) ≤ rnd (rnd (y.val - k.val) * 5) := rnd_mono (by grind)
  exact rnd_mono (by grind)

/-- C80. Back from the other scales: `t - 273.15` from kelvin, `5/9 (t - 32)` from Fahrenheit,
`5/9 (t - 491.67)` from Rankine. -/
theorem C80_back : ConvertsBack Conv.kelvin_to_celsius 1 273.15 ∧
    ConvertsBack Conv.fahrenheit_to_celsius (5 / 9) 32 ∧
    ConvertsBack Conv.rankine_to_celsius (5 / 9) 491.67 := by
  obtain ⟨hk, hr, h32, -, -⟩ := lit_close
  refine ⟨⟨fun x => ?_, fun x y h => ?_⟩, ⟨fun x => ?_, fun x y h => ?_⟩,
    ⟨fun x => ?_, fun x y h => ?_⟩⟩
  · obtain ⟨a1, a2, a3⟩ := le_abs x.val
    show Within _ (rnd (x.val - (F64.lit 273.15).val)) _
    have hu : ulp = 1 / 9007199254740992 := rfl
    rw [hu] at hk
    generalize x.val = v at *
    generalize v.abs = y at *
    generalize (F64.lit 273.15).val = c at *
    obtain ⟨k1, k2⟩ := hk
    have w := rnd_withinS (q := v - c) (B := y + 274) (by grind) (by grind)
    rw [hu] at w
    generalize rnd (v - c) = z at *
    obtain ⟨z1, z2⟩ := w
    constructor <;> grind
  · exact rnd_mono (show x.val - (F64.lit 273.15).val ≤ y.val - (F64.lit 273.15).val by grind)
  · exact five_ninths x _ 32 (by decide +kernel) (by rw [h32]; decide +kernel)
  · exact five_ninths_mono x y _ h
  · exact five_ninths x _ 491.67 (by decide +kernel) hr
  · exact five_ninths_mono x y _ h

/-- There and back, `x ↦ a x + b` and then `y ↦ (y - b) / a`, is the identity up to the fraction
4e-15 of `|x| + b / a`. -/
def RoundTrip (there : Option F64 → Option F64) (back : F64 → F64) (shift : Rat) : Prop :=
  ∀ x : F64, ∃ y, there (some x) = some y ∧
    Within (4 / 1000000000000000 * (x.val.abs + shift)) (back y).val x.val

theorem roundTrip_of {there : Option F64 → Option F64} {back : F64 → F64} {a a' b : Rat}
    (h : ConvertsTemp there a b) (h' : ConvertsBack back a' b)
    (ha : (a = 1 ∧ a' = 1) ∨ (a = 9 / 5 ∧ a' = 5 / 9)) (hb : 0 ≤ b) :
    RoundTrip there back (a' * b) := by
  intro x
  obtain ⟨y, hy, c1, c2⟩ := h.close x
  refine ⟨y, hy, ?_⟩
  obtain ⟨d1, d2⟩ := h'.close y
  obtain ⟨x1, x2, x3⟩ := le_abs x.val
  obtain ⟨y1, y2, y3⟩ := le_abs y.val
  have hy' : y.val.abs ≤ a * x.val.abs + b + 1 / 1000000000000000 * (a * x.val.abs + b) := by
    by_cases hs : 0 ≤ y.val
    · rw [Rat.abs_of_nonneg hs]
      rcases ha with ⟨rfl, rfl⟩ | ⟨rfl, rfl⟩ <;> grind
    · rw [Rat.abs_of_nonpos (by grind)]
      rcases ha with ⟨rfl, rfl⟩ | ⟨rfl, rfl⟩ <;> grind
  generalize (back y).val = z at *
  generalize y.val.abs = p at *
  generalize x.val.abs = q at *
  generalize y.val = v at *
  generalize x.val = u at *
  rcases ha with ⟨rfl, rfl⟩ | ⟨rfl, rfl⟩
  · constructor <;> grind
  · constructor <;> grind

/-- C80. The temperature given by a report in another scale, converted back, is the temperature of
the report up to the stated error. -/
theorem C80_round_trip : RoundTrip inKelvin Conv.kelvin_to_celsius 273.15 ∧
    RoundTrip inFahrenheit Conv.fahrenheit_to_celsius (5 / 9 * 32) ∧
    RoundTrip inRankine Conv.rankine_to_celsius (5 / 9 * 491.67) := by
  obtain ⟨t1, t2, t3⟩ := C49_temperatures
  obtain ⟨b1, b2, b3⟩ := C80_back
  refine ⟨?_, ?_, ?_⟩
  · have := roundTrip_of t1 b1 (.inl ⟨rfl, rfl⟩) (by decide +kernel)
    rwa [Rat.one_mul] at this
  · exact roundTrip_of t2 b2 (.inr ⟨rfl, rfl⟩) (by decide +kernel)
  · exact roundTrip_of t3 b3 (.inr ⟨rfl, rfl⟩) (by decide +kernel)

/-- 23 degrees Fahrenheit are -5 degrees; 12 degrees to kelvin and back are not exactly 12. -/
example : (Conv.fahrenheit_to_celsius ⟨23, false⟩).val = -5 := by decide +kernel
example : (inKelvin (some (F64.ofNat 12))).map
    (fun y => decide (Within (1 / 1000000000000) (Conv.kelvin_to_celsius y).val 12)) = some true := by
  decide +kernel

end Verif.Props
