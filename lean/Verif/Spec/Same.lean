import Verif.Spec.Compare
import Verif.Spec.Weather

/-
Groups whose decoded values are equal.
-/

namespace Verif.Spec

/-- Two attributes that Python finds equal: both missing, or the same number (`-0.0 == 0.0`). -/
def SameNumber (v v' : Option F64) : Prop := v.map (·.val) = v'.map (·.val)

/-- Once the two objects agree in one of the units, the same quantity is stated, or none in both. -/
def TellsIn {α : Type} (units : List (α → Option F64)) (q q' : Option Rat) (x x' : α) : Prop :=
  ∀ u ∈ units, SameNumber (u x) (u x') → q = q'

/-- The attributes of an object that expose a direction in its units. -/
def windDirections : List (MetarWind → Option F64) :=
  [MetarWind.directionInDegrees, MetarWind.directionInRadians, MetarWind.directionInGradians]
def variationsFrom : List (WindVariation → Option F64) :=
  [WindVariation.fromInDegrees, WindVariation.fromInRadians, WindVariation.fromInGradians]
def variationsTo : List (WindVariation → Option F64) :=
  [WindVariation.toInDegrees, WindVariation.toInRadians, WindVariation.toInGradians]

/-- A stated direction as a number. -/
def statedDegrees (d : Option Nat) : Option Rat := d.map fun n : Nat => (n : Rat)

/-- Two covers the library describes in the same words: no cloud is written in four ways, of which two
and two have the same oktas. -/
def Cover.Alike (a b : Cover) : Prop :=
  a = b ∨ a ∈ [Cover.skc, .clr] ∧ b ∈ [Cover.skc, .clr] ∨ a ∈ [Cover.nsc, .ncd] ∧ b ∈ [Cover.nsc, .ncd]

instance (a b : Cover) : Decidable (a.Alike b) := inferInstanceAs (Decidable (_ ∨ _))

/-- A type that is not known is as if it were not written. -/
def Kind.stated : Kind → Option Kind
  | .absent | .undef => none
  | k => some k

/-- A phenomenon that is missing is as if it were not written. -/
def WeatherGroup.stated (w : WeatherGroup) : Option Phenomenon :=
  match w.phenomenon with
  | some .missing => none
  | p => p

end Verif.Spec
