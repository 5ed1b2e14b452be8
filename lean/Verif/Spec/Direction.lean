import Verif.Py.Str

/-
The compass rose, independently of the implementation: sixteen points, 22.5 degrees apart, each the
centre of a sector reaching 11.25 degrees to both sides.
-/

namespace Verif.Spec

/-- The points of the compass clockwise from north. -/
def points : List PyStr :=
  [py!"N", py!"NNE", py!"NE", py!"ENE", py!"E", py!"ESE", py!"SE", py!"SSE", py!"S", py!"SSW",
   py!"SW", py!"WSW", py!"W", py!"WNW", py!"NW", py!"NNW"]

/-- `v` degrees lie in the sector of the `i`-th point, after any number of full turns. -/
def InSector (i : Nat) (v : Rat) : Prop :=
  ∃ turns : Int, (i : Rat) * 22.5 + 360 * turns - 11.25 ≤ v ∧ v < (i : Rat) * 22.5 + 360 * turns + 11.25

/-- `name` is the name of the compass point in whose sector `v` lies. -/
def IsCardinal (name : PyStr) (v : Rat) : Prop := ∃ i, points[i]? = some name ∧ InSector i v

end Verif.Spec
