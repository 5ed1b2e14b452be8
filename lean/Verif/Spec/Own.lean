import Verif.Spec.Report

/-
Specification for C99: the attributes of two reports agree wherever the groups at their own places agree.
-/

namespace Verif.Spec

/-- The groups taken at the places `lo..hi` are the same. -/
def SameAt (c c' : List (PyStr × Nat)) (lo hi : Nat) : Prop := taken c lo hi = taken c' lo hi

/-- Attributes of two METARs with the decoded groups `c` and `c'`. Wind, wind variation and so on depend on
their groups only. -/
structure MetarOwn (c c' : List (PyStr × Nat)) (r r' : Metar) : Prop where
  type : SameAt c c' 0 0 → r.type = r'.type
  modifier : SameAt c c' 3 3 → r.modifier = r'.modifier
  wind : SameAt c c' 4 4 → r.core.wind = r'.core.wind
  windVariation : SameAt c c' 5 5 → r.windVariation = r'.windVariation
  prevailing : SameAt c c' 6 6 → r.core.prevailing = r'.core.prevailing
  minimum : SameAt c c' 7 7 → r.minimumVisibility = r'.minimumVisibility
  ranges : SameAt c c' 8 10 → r.runwayRanges.list = r'.runwayRanges.list
  weathers : SameAt c c' 11 13 → r.core.weathers.list = r'.core.weathers.list
  clouds : SameAt c c' 14 17 → r.core.clouds.list = r'.core.clouds.list
  temperatures : SameAt c c' 18 18 → r.temperatures = r'.temperatures
  pressure : SameAt c c' 19 20 → r.pressure = r'.pressure
  recent : SameAt c c' 21 21 → r.recentWeather = r'.recentWeather
  windshears : SameAt c c' 22 24 → r.windshears.list = r'.windshears.list
  sea : SameAt c c' 25 25 → r.seaState = r'.seaState
  runwayState : SameAt c c' 26 26 → r.runwayState = r'.runwayState

/-- Attributes of two TAFs. The temperatures need the time of the report as well. -/
structure TafOwn (c c' : List (PyStr × Nat)) (r r' : Taf) : Prop where
  type : SameAt c c' 0 0 → r.type = r'.type
  modifier : SameAt c c' 1 1 → r.modifier = r'.modifier
  missing : SameAt c c' 4 4 → r.missing = r'.missing
  cancelled : SameAt c c' 6 6 → r.cancelled = r'.cancelled
  wind : SameAt c c' 7 7 → r.core.wind = r'.core.wind
  prevailing : SameAt c c' 8 8 → r.core.prevailing = r'.core.prevailing
  weathers : SameAt c c' 9 11 → r.core.weathers.list = r'.core.weathers.list
  clouds : SameAt c c' 12 15 → r.core.clouds.list = r'.core.clouds.list
  temperatures : SameAt c c' 16 19 → r.time = r'.time →
    r.maxTemperatures.list = r'.maxTemperatures.list ∧ r.minTemperatures.list = r'.minTemperatures.list

/-- Wind, visibility, weather and clouds of two forecasts, the first of them at place `k`. -/
structure ForecastOwn (k : Nat) (c c' : List (PyStr × Nat)) (f f' : Core) : Prop where
  wind : SameAt c c' k k → f.wind = f'.wind
  prevailing : SameAt c c' (k + 1) (k + 1) → f.prevailing = f'.prevailing
  weathers : SameAt c c' (k + 2) (k + 4) → f.weathers.list = f'.weathers.list
  clouds : SameAt c c' (k + 5) (k + 8) → f.clouds.list = f'.clouds.list

end Verif.Spec
