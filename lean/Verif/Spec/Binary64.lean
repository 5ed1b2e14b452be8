import Verif.Model.Taf
import Verif.Model.Accessors

/-
IEEE 754 binary64: the numbers of the format and rounding to nearest, ties to even (IEEE 754-2008,
3.4 and 4.3.1). The specification knows nothing of how the model rounds.
-/

namespace Verif.Spec

/-- The finite numbers of the format: 53 bits and an exponent from -1074 to 971. -/
def Binary64 (q : Rat) : Prop :=
  ∃ m e : Int, q = m * 2 ^ e ∧ -9007199254740992 < m ∧ m < 9007199254740992 ∧ -1074 ≤ e ∧ e ≤ 971

/-- Those whose last bit is zero. -/
def EvenBinary64 (q : Rat) : Prop :=
  ∃ m e : Int, q = m * 2 ^ e ∧ -9007199254740992 < m ∧ m < 9007199254740992 ∧ -1074 ≤ e ∧ e ≤ 971 ∧ m % 2 = 0

def distance (a b : Rat) : Rat := if a ≤ b then b - a else a - b

/-- `y` is `q` rounded to nearest, ties to even. -/
structure Rounded (q y : Rat) : Prop where
  format : Binary64 y
  nearest : ∀ z, Binary64 z → distance y q ≤ distance z q
  tie : ∀ z, Binary64 z → z ≠ y → distance z q = distance y q → EvenBinary64 y

/-- The largest finite number and the smallest normal one. -/
def largest : Rat := 9007199254740991 * 2 ^ (971 : Int)
def smallestNormal : Rat := 2 ^ (-1022 : Int)

/-- Zero, or of a magnitude in the range of the normal numbers. -/
def InRange (q : Rat) : Prop :=
  q = 0 ∨ (smallestNormal ≤ q ∧ q ≤ largest) ∨ (smallestNormal ≤ -q ∧ -q ≤ largest)

/-! ### The numbers of a report, in every unit in which they can be asked for -/

def windNumbers (w : MetarWind) : List (Option F64) :=
  [w.directionInDegrees, w.directionInRadians, w.directionInGradians,
   w.speedInKnot, w.speedInMps, w.speedInKph, w.speedInMiph,
   w.gustInKnot, w.gustInMps, w.gustInKph, w.gustInMiph]

def visNumbers (v : Visibility) : List (Option F64) :=
  [v.inMeters, v.inKilometers, v.inSeaMiles, v.inFeet,
   v.directionInDegrees, v.directionInRadians, v.directionInGradians]

def cloudNumbers (c : Cloud) : List (Option F64) :=
  [c.heightInMeters, c.heightInKilometers, c.heightInSeaMiles, c.heightInFeet]

/-- Of a METAR or TAF, a trend or a change. -/
def coreNumbers (c : Core) : List (Option F64) :=
  windNumbers c.wind ++ visNumbers c.prevailing ++ c.clouds.list.flatMap cloudNumbers

def variationNumbers (w : WindVariation) : List (Option F64) :=
  [w.fromInDegrees, w.fromInRadians, w.fromInGradians, w.toInDegrees, w.toInRadians, w.toInGradians]

def rangeNumbers (r : RunwayRange) : List (Option F64) :=
  [r.lowInMeters, r.lowInKilometers, r.lowInSeaMiles, r.lowInFeet,
   r.highInMeters, r.highInKilometers, r.highInSeaMiles, r.highInFeet]

def temperatureNumbers (t : Temperatures) : List (Option F64) :=
  [t.temperatureInCelsius, t.temperatureInKelvin, t.temperatureInFahrenheit, t.temperatureInRankine,
   t.dewpointInCelsius, t.dewpointInKelvin, t.dewpointInFahrenheit, t.dewpointInRankine]

def pressureNumbers (p : MetarPressure) : List (Option F64) :=
  [p.inHPa, p.inInHg, p.inMbar, p.inBar, p.inAtm]

def seaNumbers (s : SeaState) : List (Option F64) :=
  [s.temperatureInCelsius, s.temperatureInKelvin, s.temperatureInFahrenheit, s.temperatureInRankine,
   s.heightInMeters, s.inCentimeters, s.inDecimeters, s.heightInFeet, s.inInches]

def metarNumbers (r : Metar) : List (Option F64) :=
  coreNumbers r.core ++ variationNumbers r.windVariation ++ visNumbers r.minimumVisibility ++
  r.runwayRanges.list.flatMap rangeNumbers ++ temperatureNumbers r.temperatures ++
  pressureNumbers r.pressure ++ seaNumbers r.seaState ++
  r.weatherTrends.list.flatMap fun p => coreNumbers p.core

def extremeNumbers (t : TafTemperature) : List (Option F64) :=
  [t.inCelsius, t.inKelvin, t.inFahrenheit, t.inRankine]

def tafNumbers (r : Taf) : List (Option F64) :=
  coreNumbers r.core ++ r.maxTemperatures.list.flatMap extremeNumbers ++
  r.minTemperatures.list.flatMap extremeNumbers ++ r.changes.list.flatMap fun x => coreNumbers x.core

/-- A number of the format that is zero or of a magnitude from 0.00001 to 100 million. Only zero has a
sign of its own. -/
structure Ordinary (x : F64) : Prop where
  zero : x.nz = true → x.val = 0
  format : Binary64 x.val
  size : x.val = 0 ∨ (1 / 100000 ≤ x.val ∧ x.val ≤ 100000000) ∨ (1 / 100000 ≤ -x.val ∧ -x.val ≤ 100000000)

/-- Zero, or of a magnitude from 10^-100 to 10^100. -/
def Moderate (x : F64) : Prop :=
  x.val = 0 ∨ (1 / 10 ^ 100 ≤ x.val ∧ x.val ≤ 10 ^ 100) ∨ (1 / 10 ^ 100 ≤ -x.val ∧ -x.val ≤ 10 ^ 100)

/-- The sign bit: negative, or the zero with a minus sign. -/
def Negative (x : F64) : Prop := x.val < 0 ∨ x.nz = true

/-- `z` is the double for the exact result `q` whose sign, should it be zero, is `minus`. -/
structure Result (q : Rat) (minus : Prop) (z : F64) : Prop where
  value : Rounded q z.val
  sign : Negative z ↔ q < 0 ∨ (q = 0 ∧ minus)

end Verif.Spec
