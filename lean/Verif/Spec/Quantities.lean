import Verif.Spec.Wind
import Verif.Spec.Direction
import Verif.Spec.Visibility
import Verif.Spec.CloudReport
import Verif.Spec.Runway
import Verif.Spec.Periods
import Verif.Spec.GroupText
import Verif.Model.Accessors

/-
The quantities that groups state, in physical units, and what it means to expose them.
-/

namespace Verif.Spec

/-- `v` is the quantity `q ≥ 0` up to the relative error `e`, or missing if there is none. -/
def Gives (e : Rat) (q : Option Rat) (v : Option F64) : Prop :=
  match q with
  | none => v = none
  | some q => ∃ y, v = some y ∧ Rel e y.val q

/-- `v` is the quantity `q` up to the absolute error `e`, or missing if there is none. -/
def Near (e : Rat) (q : Option Rat) (v : Option F64) : Prop :=
  match q with
  | none => v = none
  | some q => ∃ y, v = some y ∧ Within e y.val q

/-- What a kind of group says, together with another statement about the decoded object. -/
def Grammar.also {γ α : Type} (G : Grammar γ α) (P : γ → α → Prop) : Grammar γ α :=
  ⟨G.WF, G.text, fun w x => G.Says w x ∧ P w x⟩

/-! ### Angles -/

/-- `name` is the compass point in whose sector the direction lies, and no other one is; missing if there is none. -/
def Points (deg : Option Nat) (name : Option PyStr) : Prop :=
  match deg with
  | none => name = none
  | some d => ∃ n, name = some n ∧ ∀ n', IsCardinal n' d ↔ n' = n

/-- A direction of whole degrees in the three units and as a compass point; pi to 19 digits. -/
structure AngleUnits (deg : Option Nat) (degrees radians gradians : Option F64) (point : Option PyStr) : Prop where
  degrees : degrees = deg.map whole
  radians : Gives (1 / 10 ^ 15) (deg.map fun d : Nat => 3.141592653589793238 * d / 180) radians
  gradians : Gives (1 / 10 ^ 8) (deg.map fun d : Nat => 400 * d / 360) gradians
  point : Points deg point

/-! ### Speeds -/

/-- Metres per second of a stated number of metres per second or of knots (1852 m per hour). -/
def statedMps (mps : Bool) (n : Option Nat) : Option Rat :=
  n.map fun n : Nat => if mps then n else n * 1852 / 3600

/-- A speed in knots, m/s, km/h and (statute, 1609.344 m) miles per hour. The numbers are good to
eight digits (miles: six), and in the unit of the group the stated number comes out. -/
structure SpeedUnits (mps : Bool) (n : Option Nat) (knot ms kph miph : Option F64) : Prop where
  inKnot : Gives (1 / 10 ^ 8) ((statedMps mps n).map fun v => v * 3600 / 1852) knot
  inMs : Gives (3 / 10 ^ 8) (statedMps mps n) ms
  inKph : Gives (2 / 10 ^ 8) ((statedMps mps n).map fun v => v * 3600 / 1000) kph
  inMiph : Gives (2 / 10 ^ 6) ((statedMps mps n).map fun v => v * 3600 / 1609.344) miph
  sameKnot : mps = false → knot = n.map whole
  sameMs : mps = true → Gives (1 / 10 ^ 13) (n.map fun n : Nat => (n : Rat)) ms

def WindUnits (w : WindGroup) (x : MetarWind) : Prop :=
  AngleUnits w.dir.degrees x.directionInDegrees x.directionInRadians x.directionInGradians x.cardinalDirection ∧
  SpeedUnits w.mps w.speed.number x.speedInKnot x.speedInMps x.speedInKph x.speedInMiph ∧
  SpeedUnits w.mps w.gustNumber x.gustInKnot x.gustInMps x.gustInKph x.gustInMiph ∧
  (x.variable_ = true ↔ w.dir = .vrb)

def VariationUnits (w : VariationGroup) (x : WindVariation) : Prop :=
  AngleUnits (some (10 * w.from_)) x.fromInDegrees x.fromInRadians x.fromInGradians x.fromCardinalDirection ∧
  AngleUnits (some (10 * w.to)) x.toInDegrees x.toInRadians x.toInGradians x.toCardinalDirection

/-! ### Distances -/

/-- A distance in metres, kilometres, sea miles (1852 m) and feet (0.3048 m), up to the relative
error `e`. -/
structure LengthUnits (e : Rat) (q : Option Rat) (m km smi ft : Option F64) : Prop where
  m : Gives e q m
  km : Gives e (q.map fun q => q / 1000) km
  smi : Gives e (q.map fun q => q / 1852) smi
  ft : Gives e (q.map fun q => q / 0.3048) ft

/-- Miles of visibility are of 1852 m (`VisGroup.metresStated`). The compass point is the one written. -/
def VisUnits (w : VisGroup) (x : Visibility) : Prop :=
  LengthUnits (1 / 10 ^ 14) w.metresStated x.inMeters x.inKilometers x.inSeaMiles x.inFeet ∧
  AngleUnits w.degrees x.directionInDegrees x.directionInRadians x.directionInGradians x.cardinalDirection ∧
  ∀ m d, w = .metres m (some d) → w.degrees ≠ none → x.cardinalDirection = some d

/-- Metres of a height in hundreds of feet. -/
def Layer.metres (l : Layer) : Option Rat := l.base.hundredsOfFeet.map fun k : Nat => 100 * k * 0.3048

def CloudUnits (l : Layer) (c : Cloud) : Prop :=
  LengthUnits (2 / 10 ^ 10) l.metres c.heightInMeters c.heightInKilometers c.heightInSeaMiles
    c.heightInFeet

/-- Metres of a visual range. -/
def RangeValue.metres (v : RangeValue) (feet : Bool) : Rat :=
  if feet then digitsVal v.digits * 0.3048
  else if v.digits = py!"9999" then 10000 else digitsVal v.digits

def RangeUnits (g : RangeGroup) (x : RunwayRange) : Prop :=
  LengthUnits (1 / 10 ^ 14) (some (g.low.metres g.feet)) x.lowInMeters x.lowInKilometers
    x.lowInSeaMiles x.lowInFeet ∧
  LengthUnits (1 / 10 ^ 14) (g.high.map (·.metres g.feet)) x.highInMeters x.highInKilometers
    x.highInSeaMiles x.highInFeet

/-! ### Temperatures -/

/-- Degrees Celsius as a number. -/
def statedCelsius (minus : Bool) (n : Option Nat) : Option Rat :=
  n.map fun n : Nat => if minus then -(n : Rat) else n

/-- A temperature in the four scales: exact in Celsius, within 1e-12 in the others. -/
structure TempUnits (q : Option Rat) (c k f r : Option F64) : Prop where
  c : Near 0 q c
  k : Near (1 / 10 ^ 12) (q.map fun t => t + 273.15) k
  f : Near (1 / 10 ^ 12) (q.map fun t => t * 9 / 5 + 32) f
  r : Near (1 / 10 ^ 12) (q.map fun t => (t + 273.15) * 9 / 5) r

def TempPart.celsius (t : TempPart) : Option Rat := statedCelsius t.minus.isSome t.number.value

def TemperaturesUnits (g : TempGroup) (x : Temperatures) : Prop :=
  TempUnits g.air.celsius x.temperatureInCelsius x.temperatureInKelvin x.temperatureInFahrenheit
    x.temperatureInRankine ∧
  TempUnits g.dew.celsius x.dewpointInCelsius x.dewpointInKelvin x.dewpointInFahrenheit
    x.dewpointInRankine

def TafTempUnits (w : TafTempGroup) (x : TafTemperature) : Prop :=
  TempUnits (statedCelsius w.minus (some (digitsVal w.digits))) x.inCelsius x.inKelvin x.inFahrenheit
    x.inRankine

/-! ### Pressure -/

/-- Hectopascals of one inch of mercury. -/
def inchOfMercury : Rat := 33.863886666667

/-- The pressure of a group with a unit, in hectopascals. -/
def PressGroup.statedHPa (g : PressGroup) : Option Rat :=
  g.number.map fun ds =>
    if g.letters = some .A ∨ g.ins = true then digitsVal ds / 100 * inchOfMercury else digitsVal ds

/-- A pressure in five units, good to six digits. In the unit of the group the stated number comes
out (inches to eight digits, hectopascals exactly). -/
structure PressUnits (g : PressGroup) (x : MetarPressure) : Prop where
  hPa : Gives (1 / 10 ^ 6) g.statedHPa x.inHPa
  inHg : Gives (2 / 10 ^ 6) (g.statedHPa.map fun p => p / inchOfMercury) x.inInHg
  mbar : Gives (2 / 10 ^ 6) g.statedHPa x.inMbar
  bar : Gives (2 / 10 ^ 6) (g.statedHPa.map fun p => p / 1000) x.inBar
  atm : Gives (2 / 10 ^ 6) (g.statedHPa.map fun p => p / 1013.25) x.inAtm
  sameInches : g.Inches → Gives (2 / 10 ^ 8) (g.number.map fun ds => digitsVal ds / 100) x.inInHg
  sameHecto : g.Hecto → x.inHPa = g.number.map (fun ds => whole (digitsVal ds)) ∧ x.inMbar = x.inHPa

/-- A number without unit is understood to be at most 2500 hectopascals. -/
def PressGroup.Sensible (g : PressGroup) : Prop :=
  g.Bare → ∀ ds, g.number = some ds → digitsVal ds ≤ 2500

/-! ### Sea -/

/-- Metres of the wave height, which is stated in decimetres. -/
def SeaValue.statedMetres : SeaValue → Option Rat
  | .state _ => none
  | .height ds => some (digitsVal ds / 10)

structure SeaUnits (g : SeaGroup) (x : SeaState) : Prop where
  temperature : TempUnits (statedCelsius g.minus (some (digitsVal g.temp))) x.temperatureInCelsius
    x.temperatureInKelvin x.temperatureInFahrenheit x.temperatureInRankine
  m : Gives (1 / 10 ^ 14) g.value.statedMetres x.heightInMeters
  dm : Gives (1 / 10 ^ 14) (g.value.statedMetres.map fun q => q * 10) x.inDecimeters
  cm : Gives (1 / 10 ^ 14) (g.value.statedMetres.map fun q => q * 100) x.inCentimeters
  ft : Gives (1 / 10 ^ 14) (g.value.statedMetres.map fun q => q / 0.3048) x.heightInFeet
  inches : Gives (2 / 10 ^ 6) (g.value.statedMetres.map fun q => q / 0.0254) x.inInches

end Verif.Spec
