import Verif.Lemmas.ReprRead

/-
C76: numbers the library hands over as text.
-/

namespace Verif.Props
open Verif Verif.Spec

/-- C76. Converted speeds, visibilities, runway ranges and wave heights are written with `f"{x}"` and read
again by `Speed` and `Distance`; they arrive unchanged, and are never mistaken for the visibility `9999`. -/
theorem C76_text (x : F64) (hd : Double x) (hs : x.sgn = false)
    (h : x.val = 0 ∨ 1 / 1000 ≤ x.val ∧ x.val < 10 ^ 16) :
    floatOf (floatRepr x) = some x ∧ distance (some (floatRepr x)) = some x ∧
      Verif.speed (some (floatRepr x)) = .ok (some x) :=
  ⟨floatOf_repr hd ⟨hs, h⟩, distance_repr hd ⟨hs, h⟩, speed_repr hd ⟨hs, h⟩⟩

/-- 7 m/s in knots, and 9999 itself: the text `9999` stands for 10 km, the number does not. -/
example : floatRepr ((F64.ofNat 7).mul Conv.MPS_TO_KNOT) = py!"13.606911564638546" := by decide +kernel
example : distance (some (floatRepr (F64.ofNat 9999))) = some (F64.ofNat 9999) ∧
    distance (some py!"9999") = some (F64.ofNat 10000) := by decide +kernel

end Verif.Props
