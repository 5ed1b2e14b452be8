import Verif.Spec.Report
import Verif.Spec.Grammar

/-
Weather groups as a person reads them (WMO code table 4678).
-/

namespace Verif.Spec

inductive Intensity where
  | light | heavy | vicinity | lightVicinity | heavyVicinity
deriving DecidableEq, Repr

def Intensity.text : Intensity → PyStr
  | .light => py!"-" | .heavy => py!"+" | .vicinity => py!"VC"
  | .lightVicinity => py!"-VC" | .heavyVicinity => py!"+VC"

def Intensity.means : Intensity → PyStr
  | .light => py!"light" | .heavy => py!"heavy" | .vicinity => py!"nearby"
  | .lightVicinity => py!"nearby light" | .heavyVicinity => py!"nearby heavy"

inductive Descriptor where
  | MI | PR | BC | DR | BL | SH | TS | FZ
deriving DecidableEq, Repr

def Descriptor.text : Descriptor → PyStr
  | .MI => py!"MI" | .PR => py!"PR" | .BC => py!"BC" | .DR => py!"DR" | .BL => py!"BL"
  | .SH => py!"SH" | .TS => py!"TS" | .FZ => py!"FZ"

def Descriptor.means : Descriptor → PyStr
  | .MI => py!"shallow" | .PR => py!"partial" | .BC => py!"patches of" | .DR => py!"low drifting"
  | .BL => py!"blowing" | .SH => py!"showers" | .TS => py!"thunderstorm" | .FZ => py!"freezing"

inductive Precipitation where
  | DZ | RA | SN | SG | IC | PL | GR | GS | UP
deriving DecidableEq, Repr

def Precipitation.text : Precipitation → PyStr
  | .DZ => py!"DZ" | .RA => py!"RA" | .SN => py!"SN" | .SG => py!"SG" | .IC => py!"IC"
  | .PL => py!"PL" | .GR => py!"GR" | .GS => py!"GS" | .UP => py!"UP"

def Precipitation.means : Precipitation → PyStr
  | .DZ => py!"drizzle" | .RA => py!"rain" | .SN => py!"snow" | .SG => py!"snow grains"
  | .IC => py!"ice crystals" | .PL => py!"ice pellets" | .GR => py!"hail"
  | .GS => py!"snow pellets" | .UP => py!"unknown precipitation"

inductive Obscuration where
  | BR | FG | FU | VA | DU | SA | HZ | PY
deriving DecidableEq, Repr

def Obscuration.text : Obscuration → PyStr
  | .BR => py!"BR" | .FG => py!"FG" | .FU => py!"FU" | .VA => py!"VA" | .DU => py!"DU"
  | .SA => py!"SA" | .HZ => py!"HZ" | .PY => py!"PY"

def Obscuration.means : Obscuration → PyStr
  | .BR => py!"mist" | .FG => py!"fog" | .FU => py!"smoke" | .VA => py!"volcanic ash"
  | .DU => py!"dust" | .SA => py!"sand" | .HZ => py!"haze" | .PY => py!"spray"

inductive OtherWeather where
  | PO | SQ | FC | SS | DS | NSW
deriving DecidableEq, Repr

def OtherWeather.text : OtherWeather → PyStr
  | .PO => py!"PO" | .SQ => py!"SQ" | .FC => py!"FC" | .SS => py!"SS" | .DS => py!"DS"
  | .NSW => py!"NSW"

def OtherWeather.means : OtherWeather → PyStr
  | .PO => py!"sand whirls" | .SQ => py!"squalls" | .FC => py!"funnel cloud"
  | .SS => py!"sandstorm" | .DS => py!"dust storm" | .NSW => py!"nil significant weather"

/-- What happens; `missing` is a single slash. -/
inductive Phenomenon where
  | prec (p : Precipitation)
  | obsc (o : Obscuration)
  | other (x : OtherWeather)
  | missing
deriving DecidableEq, Repr

def Phenomenon.text : Phenomenon → PyStr
  | .prec p => p.text | .obsc o => o.text | .other x => x.text | .missing => py!"/"

def Phenomenon.precipitation : Phenomenon → Option Precipitation
  | .prec p => some p | _ => none
def Phenomenon.obscuration : Phenomenon → Option Obscuration
  | .obsc o => some o | _ => none
def Phenomenon.otherWeather : Phenomenon → Option OtherWeather
  | .other x => some x | _ => none

/-- The text of an optional part. -/
def optText {α : Type} (f : α → PyStr) : Option α → PyStr
  | none => []
  | some a => f a

/-- A weather group; the library also takes the empty text as one. -/
structure WeatherGroup where
  intensity : Option Intensity := none
  descriptor : Option Descriptor := none
  phenomenon : Option Phenomenon := none
deriving DecidableEq, Repr

def WeatherGroup.text (w : WeatherGroup) : PyStr :=
  optText Intensity.text w.intensity ++ optText Descriptor.text w.descriptor ++
    optText Phenomenon.text w.phenomenon

/-- The values are the descriptions of the parts, `None` for those that are absent. -/
def weatherGrammar : Grammar WeatherGroup Weather where
  WF _ := True
  text := WeatherGroup.text
  Says w x := x.code = some (shown w.text) ∧
    x.intensity = w.intensity.map Intensity.means ∧
    x.description = w.descriptor.map Descriptor.means ∧
    x.precipitation = (w.phenomenon.bind Phenomenon.precipitation).map Precipitation.means ∧
    x.obscuration = (w.phenomenon.bind Phenomenon.obscuration).map Obscuration.means ∧
    x.other = (w.phenomenon.bind Phenomenon.otherWeather).map OtherWeather.means

/-- A recent weather group: `RE` and any of the parts, at most one of each kind. -/
structure RecentGroup where
  descriptor : Option Descriptor := none
  precipitation : Option Precipitation := none
  obscuration : Option Obscuration := none
  other : Option OtherWeather := none
deriving DecidableEq, Repr

/-- Smoke and no significant weather are not admitted. -/
def RecentGroup.WF (w : RecentGroup) : Prop :=
  w.obscuration ≠ some .FU ∧ w.other ≠ some .NSW

def RecentGroup.text (w : RecentGroup) : PyStr :=
  py!"RE" ++ optText Descriptor.text w.descriptor ++ optText Precipitation.text w.precipitation ++
    optText Obscuration.text w.obscuration ++ optText OtherWeather.text w.other

def recentGrammar : Grammar RecentGroup RecentWeather where
  WF := RecentGroup.WF
  text := RecentGroup.text
  Says w x := x.code = some (shown w.text) ∧
    x.description = w.descriptor.map Descriptor.means ∧
    x.precipitation = w.precipitation.map Precipitation.means ∧
    x.obscuration = w.obscuration.map Obscuration.means ∧
    x.other = w.other.map OtherWeather.means

end Verif.Spec
