import Verif.Spec.Weather
import Verif.Spec.Parse
import Verif.Model.Regexps

/-
The words that can be read as more than one kind of group.
-/

namespace Verif.Spec
open Verif

/-- The pattern accepts the word. -/
def Admits (r : RE) (w : PyStr) : Prop := ∃ m, r.match w = some m

/-- The kinds of groups of the body of a METAR. -/
inductive MetarKind
  | type | station | time | modifier | wind | variation | visibility | minimum | range | weather | cloud
  | temperatures | pressure | recent | shear | sea | runway
deriving DecidableEq, Repr

/-- The pattern of a kind (`metar_regexp.py` 3-94). -/
def MetarKind.pattern : MetarKind → RE
  | .type => MetarRegExp.TYPE | .station => MetarRegExp.STATION | .time => MetarRegExp.TIME
  | .modifier => MetarRegExp.MODIFIER | .wind => MetarRegExp.WIND
  | .variation => MetarRegExp.WIND_VARIATION | .visibility => MetarRegExp.VISIBILITY
  | .minimum => MetarRegExp.MINIMUM_VISIBILITY | .range => MetarRegExp.RUNWAY_RANGE
  | .weather => MetarRegExp.WEATHER | .cloud => MetarRegExp.CLOUD
  | .temperatures => MetarRegExp.TEMPERATURES | .pressure => MetarRegExp.PRESSURE
  | .recent => MetarRegExp.RECENT_WEATHER | .shear => MetarRegExp.WINDSHEAR
  | .sea => MetarRegExp.SEA_STATE | .runway => MetarRegExp.RUNWAY_STATE

/-- The kinds in the order in which a METAR offers them (`metar.py` 198-228). -/
def metarOrder : List MetarKind :=
  [.type, .station, .time, .modifier, .wind, .variation, .visibility, .minimum, .range, .range, .range,
   .weather, .weather, .weather, .cloud, .cloud, .cloud, .cloud, .temperatures, .pressure, .pressure,
   .recent, .shear, .shear, .shear, .sea, .runway]

/-- Four digits or four slashes. -/
def Bare (w : PyStr) : Prop :=
  (w.length = 4 ∧ ∀ c ∈ w, isDigit c = true) ∨ w = py!"////"

/-- The directions that may follow a visibility, or nothing. -/
def visEnds : List PyStr :=
  [py!"", py!"N", py!"S", py!"E", py!"W", py!"NE", py!"NW", py!"SE", py!"SW", py!"EE", py!"EW", py!"WE",
   py!"WW"]

/-- The words that two kinds of groups of a METAR share. -/
inductive SharedMetar : MetarKind → MetarKind → PyStr → Prop
  | modifier {w : PyStr} : w ∈ [py!"CORR", py!"TEST", py!"FINO", py!"AUTO"] →
      SharedMetar .station .modifier w
  | miles {s d : Nat} {u : PyStr} : s ∈ py!"MP" → 48 ≤ d ∧ d ≤ 57 → u ∈ [py!"SM", py!"KM"] →
      SharedMetar .station .visibility (s :: d :: u)
  | units {s d e u : Nat} : s ∈ py!"MP" → 48 ≤ d ∧ d ≤ 57 → 48 ≤ e ∧ e ≤ 57 → u ∈ py!"MU" →
      SharedMetar .station .visibility [s, d, e, u]
  | weather (g : WeatherGroup) : g.text.length = 4 → 43 ∉ g.text → 45 ∉ g.text →
      SharedMetar .station .weather g.text
  | cloud : SharedMetar .station .cloud py!"VVCB"
  | recent (g : RecentGroup) : g.WF → g.text.length = 4 → SharedMetar .station .recent g.text
  | minimum {v d : PyStr} : Bare v → d ∈ visEnds → SharedMetar .visibility .minimum (v ++ d)
  | pressure {w : PyStr} : Bare w → SharedMetar .visibility .pressure w
  | pressure' {w : PyStr} : Bare w → SharedMetar .minimum .pressure w

/-- The kinds of groups of a trend of a METAR. -/
inductive TrendGroupKind
  | change | period | wind | visibility | weather | cloud
deriving DecidableEq, Repr

def TrendGroupKind.pattern : TrendGroupKind → RE
  | .change => MetarRegExp.CHANGE_INDICATOR | .period => MetarRegExp.TREND_TIME_PERIOD
  | .wind => MetarRegExp.WIND | .visibility => MetarRegExp.VISIBILITY | .weather => MetarRegExp.WEATHER
  | .cloud => MetarRegExp.CLOUD

/-- `weather_trend.py` 102-115 -/
def trendOrder : List TrendGroupKind :=
  [.change, .period, .period, .wind, .visibility, .weather, .weather, .weather, .cloud, .cloud, .cloud, .cloud]

/-- The kinds of groups of the body of a TAF. -/
inductive TafKind
  | type | amendment | station | time | missing | valid | cancelled | wind | visibility | weather | cloud
  | temperature
deriving DecidableEq, Repr

def TafKind.pattern : TafKind → RE
  | .type => MetarRegExp.TYPE | .amendment => TafRegExp.AMD_COR | .station => MetarRegExp.STATION
  | .time => MetarRegExp.TIME | .missing => TafRegExp.NIL | .valid => TafRegExp.VALID
  | .cancelled => TafRegExp.CANCELLED | .wind => TafRegExp.WIND | .visibility => TafRegExp.VISIBILITY
  | .weather => MetarRegExp.WEATHER | .cloud => MetarRegExp.CLOUD | .temperature => TafRegExp.TEMPERATURE

def tafOrder : List TafKind :=
  [.type, .amendment, .station, .time, .missing, .valid, .cancelled, .wind, .visibility, .weather, .weather,
   .weather, .cloud, .cloud, .cloud, .cloud, .temperature, .temperature, .temperature, .temperature]

/-- The pairs of kinds of groups of a TAF that share words, each with such a word. The pattern of the
visibility asks for the end of the word only after CAVOK, hence the many words it shares. -/
def sharedTaf : List (TafKind × TafKind × PyStr) :=
  [(.type, .visibility, py!"METAR"), (.station, .visibility, py!"MMMX"),
   (.station, .weather, py!"TSRA"), (.station, .cloud, py!"VVCB"),
   (.time, .visibility, py!"151200Z"), (.valid, .visibility, py!"1512/1612"),
   (.wind, .visibility, py!"23015KT"), (.visibility, .weather, py!"MIFG")]

/-- The kinds of groups of a change of a TAF. -/
inductive ChangeGroupKind
  | change | valid | wind | visibility | weather | cloud
deriving DecidableEq, Repr

def ChangeGroupKind.pattern : ChangeGroupKind → RE
  | .change => TafRegExp.CHANGE_INDICATOR | .valid => TafRegExp.VALID | .wind => TafRegExp.WIND
  | .visibility => MetarRegExp.VISIBILITY | .weather => MetarRegExp.WEATHER | .cloud => MetarRegExp.CLOUD

def changeOrder : List ChangeGroupKind :=
  [.change, .valid, .wind, .visibility, .weather, .weather, .weather, .cloud, .cloud, .cloud, .cloud]

end Verif.Spec
