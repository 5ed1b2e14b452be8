import Verif.Spec.Report
import Verif.Model.Regexps

/-
Specification of reports that are read completely, and of reports that are cut short. The order of the
groups is given by lists of patterns.
-/

namespace Verif.Spec

/-- The groups fit the order: some of the patterns, taken in the order of the list, match the groups one
by one. -/
def Fits (order : List RE) (gs : List PyStr) : Prop :=
  ∃ ps, ps.Sublist order ∧ Each (fun g p => (p.match g).isSome = true) gs ps

/-- The order of the groups in the body of a METAR. -/
def metarPatterns : List RE :=
  [MetarRegExp.TYPE, MetarRegExp.STATION, MetarRegExp.TIME, MetarRegExp.MODIFIER, MetarRegExp.WIND,
   MetarRegExp.WIND_VARIATION, MetarRegExp.VISIBILITY, MetarRegExp.MINIMUM_VISIBILITY] ++
  List.replicate 3 MetarRegExp.RUNWAY_RANGE ++ List.replicate 3 MetarRegExp.WEATHER ++
  List.replicate 4 MetarRegExp.CLOUD ++ [MetarRegExp.TEMPERATURES] ++
  List.replicate 2 MetarRegExp.PRESSURE ++ [MetarRegExp.RECENT_WEATHER] ++
  List.replicate 3 MetarRegExp.WINDSHEAR ++ [MetarRegExp.SEA_STATE, MetarRegExp.RUNWAY_STATE]

/-- The order of the groups in a trend of a METAR. -/
def trendPatterns : List RE :=
  [MetarRegExp.CHANGE_INDICATOR] ++ List.replicate 2 MetarRegExp.TREND_TIME_PERIOD ++
  [MetarRegExp.WIND, MetarRegExp.VISIBILITY] ++ List.replicate 3 MetarRegExp.WEATHER ++
  List.replicate 4 MetarRegExp.CLOUD

/-- The order of the groups in the body of a TAF. -/
def tafPatterns : List RE :=
  [MetarRegExp.TYPE, TafRegExp.AMD_COR, MetarRegExp.STATION, MetarRegExp.TIME, TafRegExp.NIL,
   TafRegExp.VALID, TafRegExp.CANCELLED, TafRegExp.WIND, TafRegExp.VISIBILITY] ++
  List.replicate 3 MetarRegExp.WEATHER ++ List.replicate 4 MetarRegExp.CLOUD ++
  List.replicate 4 TafRegExp.TEMPERATURE

/-- The order of the groups in a change of a TAF. -/
def changePatterns : List RE :=
  [TafRegExp.CHANGE_INDICATOR, TafRegExp.VALID, TafRegExp.WIND, MetarRegExp.VISIBILITY] ++
  List.replicate 3 MetarRegExp.WEATHER ++ List.replicate 4 MetarRegExp.CLOUD

/-- `r` was read from the front part of the body of `r'`, down to the group at position `i` of the order of
the groups: the attributes up to there are settled, and the lists begin in the same way. -/
structure MetarCut (i : Nat) (r r' : Metar) : Prop where
  type : r'.type = r.type
  station : 1 ≤ i → r'.station = r.station
  time : 2 ≤ i → r'.time = r.time
  modifier : 3 ≤ i → r'.modifier = r.modifier
  wind : 4 ≤ i → r'.core.wind = r.core.wind
  windVariation : 5 ≤ i → r'.windVariation = r.windVariation
  prevailing : 6 ≤ i → r'.core.prevailing = r.core.prevailing
  minimum : 7 ≤ i → r'.minimumVisibility = r.minimumVisibility
  ranges : r.runwayRanges.list <+: r'.runwayRanges.list ∧
    (10 ≤ i → r'.runwayRanges.list = r.runwayRanges.list)
  weathers : r.core.weathers.list <+: r'.core.weathers.list ∧
    (13 ≤ i → r'.core.weathers.list = r.core.weathers.list)
  clouds : r.core.clouds.list <+: r'.core.clouds.list ∧
    (17 ≤ i → r'.core.clouds.list = r.core.clouds.list)
  temperatures : 18 ≤ i → r'.temperatures = r.temperatures
  pressure : 20 ≤ i → r'.pressure = r.pressure
  recent : 21 ≤ i → r'.recentWeather = r.recentWeather
  windshears : r.windshears.list <+: r'.windshears.list ∧
    (24 ≤ i → r'.windshears.list = r.windshears.list)
  sea : 25 ≤ i → r'.seaState = r.seaState
  runwayState : 26 ≤ i → r'.runwayState = r.runwayState

/-- The same for a TAF. -/
structure TafCut (i : Nat) (r r' : Taf) : Prop where
  type : r'.type = r.type
  modifier : 1 ≤ i → r'.modifier = r.modifier
  station : 2 ≤ i → r'.station = r.station
  time : 3 ≤ i → r'.time = r.time
  missing : 4 ≤ i → r'.missing = r.missing
  valid : 5 ≤ i → r'.valid = r.valid
  cancelled : 6 ≤ i → r'.cancelled = r.cancelled
  wind : 7 ≤ i → r'.core.wind = r.core.wind
  prevailing : 8 ≤ i → r'.core.prevailing = r.core.prevailing
  weathers : r.core.weathers.list <+: r'.core.weathers.list ∧
    (11 ≤ i → r'.core.weathers.list = r.core.weathers.list)
  clouds : r.core.clouds.list <+: r'.core.clouds.list ∧
    (15 ≤ i → r'.core.clouds.list = r.core.clouds.list)
  maxima : r.maxTemperatures.list <+: r'.maxTemperatures.list ∧
    (19 ≤ i → r'.maxTemperatures.list = r.maxTemperatures.list)
  minima : r.minTemperatures.list <+: r'.minTemperatures.list ∧
    (19 ≤ i → r'.minTemperatures.list = r.minTemperatures.list)

end Verif.Spec
