import Verif.Spec.Quantities

/-
Comparing the quantities of two groups.
-/

namespace Verif.Spec

/-- Both numbers are there and the first is smaller. -/
def Smaller (v v' : Option F64) : Prop := ∃ x x', v = some x ∧ v' = some x' ∧ x.val < x'.val

/-- Both quantities are stated and the first is smaller. -/
def StatedBelow (q q' : Option Rat) : Prop := ∃ p p', q = some p ∧ q' = some p' ∧ p < p'

/-- Both quantities are stated and the first is smaller by at least `d`. -/
def StatedBelowBy (d : Rat) (q q' : Option Rat) : Prop := ∃ p p', q = some p ∧ q' = some p' ∧ p + d ≤ p'

/-- The attributes of an object that expose one quantity in its units. -/
def windSpeeds : List (MetarWind → Option F64) :=
  [MetarWind.speedInKnot, MetarWind.speedInMps, MetarWind.speedInKph, MetarWind.speedInMiph]
def windGusts : List (MetarWind → Option F64) :=
  [MetarWind.gustInKnot, MetarWind.gustInMps, MetarWind.gustInKph, MetarWind.gustInMiph]
def visibilities : List (Visibility → Option F64) :=
  [Visibility.inMeters, Visibility.inKilometers, Visibility.inSeaMiles, Visibility.inFeet]
def cloudHeights : List (Cloud → Option F64) :=
  [Cloud.heightInMeters, Cloud.heightInKilometers, Cloud.heightInSeaMiles, Cloud.heightInFeet]
def lowRanges : List (RunwayRange → Option F64) :=
  [RunwayRange.lowInMeters, RunwayRange.lowInKilometers, RunwayRange.lowInSeaMiles, RunwayRange.lowInFeet]
def highRanges : List (RunwayRange → Option F64) :=
  [RunwayRange.highInMeters, RunwayRange.highInKilometers, RunwayRange.highInSeaMiles, RunwayRange.highInFeet]
def airTemperatures : List (Temperatures → Option F64) :=
  [Temperatures.temperatureInCelsius, Temperatures.temperatureInKelvin, Temperatures.temperatureInFahrenheit,
   Temperatures.temperatureInRankine]
def dewpoints : List (Temperatures → Option F64) :=
  [Temperatures.dewpointInCelsius, Temperatures.dewpointInKelvin, Temperatures.dewpointInFahrenheit,
   Temperatures.dewpointInRankine]
def tafTemperatures : List (TafTemperature → Option F64) :=
  [TafTemperature.inCelsius, TafTemperature.inKelvin, TafTemperature.inFahrenheit, TafTemperature.inRankine]
def pressures : List (MetarPressure → Option F64) :=
  [MetarPressure.inHPa, MetarPressure.inInHg, MetarPressure.inMbar, MetarPressure.inBar, MetarPressure.inAtm]
def seaTemperatures : List (SeaState → Option F64) :=
  [SeaState.temperatureInCelsius, SeaState.temperatureInKelvin, SeaState.temperatureInFahrenheit,
   SeaState.temperatureInRankine]
def waveHeights : List (SeaState → Option F64) :=
  [SeaState.heightInMeters, SeaState.inDecimeters, SeaState.inCentimeters, SeaState.heightInFeet,
   SeaState.inInches]

/-- The two objects compare in every unit as the stated quantities do. -/
def ComparesIn {α : Type} (units : List (α → Option F64)) (q q' : Option Rat) (x x' : α) : Prop :=
  StatedBelow q q' → ∀ u ∈ units, Smaller (u x) (u x')

end Verif.Spec
