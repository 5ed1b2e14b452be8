import Verif.Spec.Report
import Verif.Spec.Ambiguity

/-
Specification for C109: two reports that differ in one group of the body.
-/

namespace Verif.Spec

/-- Every pattern accepts both words or neither. -/
def Alike (ps : List RE) (w w' : PyStr) : Prop := ∀ re ∈ ps, Admits re w ↔ Admits re w'

/-- Two lists that differ in one member at most, at the same place. -/
def OneOff {α : Type} (l l' : List α) : Prop := ∃ p x x' q, l = p ++ x :: q ∧ l' = p ++ x' :: q

/-- Two METARs agree on everything but the attribute of one kind of group (`none`: on everything). Where that
attribute is a list, one member of it is changed. -/
structure MetarBut (o : Option MetarKind) (r r' : Metar) : Prop where
  type : o ≠ some .type → r.type = r'.type
  station : o ≠ some .station → r.station = r'.station
  time : o ≠ some .time → r.time = r'.time
  modifier : o ≠ some .modifier → r.modifier = r'.modifier
  wind : o ≠ some .wind → r.core.wind = r'.core.wind
  windVariation : o ≠ some .variation → r.windVariation = r'.windVariation
  prevailing : o ≠ some .visibility → r.core.prevailing = r'.core.prevailing
  minimum : o ≠ some .minimum → r.minimumVisibility = r'.minimumVisibility
  ranges : o ≠ some .range → r.runwayRanges.list = r'.runwayRanges.list
  range : o = some .range → OneOff r.runwayRanges.list r'.runwayRanges.list
  weathers : o ≠ some .weather → r.core.weathers.list = r'.core.weathers.list
  weather : o = some .weather → OneOff r.core.weathers.list r'.core.weathers.list
  clouds : o ≠ some .cloud → r.core.clouds.list = r'.core.clouds.list
  cloud : o = some .cloud → OneOff r.core.clouds.list r'.core.clouds.list
  temperatures : o ≠ some .temperatures → r.temperatures = r'.temperatures
  pressure : o ≠ some .pressure → r.pressure = r'.pressure
  recent : o ≠ some .recent → r.recentWeather = r'.recentWeather
  windshears : o ≠ some .shear → r.windshears.list = r'.windshears.list
  windshear : o = some .shear → OneOff r.windshears.list r'.windshears.list
  sea : o ≠ some .sea → r.seaState = r'.seaState
  runwayState : o ≠ some .runway → r.runwayState = r'.runwayState

/-- Two TAFs agree on everything but the attribute of one kind of group; valid period and temperatures are
computed from the time as well. -/
structure TafBut (o : Option TafKind) (r r' : Taf) : Prop where
  type : o ≠ some .type → r.type = r'.type
  modifier : o ≠ some .amendment → r.modifier = r'.modifier
  station : o ≠ some .station → r.station = r'.station
  time : o ≠ some .time → r.time = r'.time
  missing : o ≠ some .missing → r.missing = r'.missing
  valid : o ≠ some .valid → o ≠ some .time → r.valid = r'.valid
  cancelled : o ≠ some .cancelled → r.cancelled = r'.cancelled
  wind : o ≠ some .wind → r.core.wind = r'.core.wind
  prevailing : o ≠ some .visibility → r.core.prevailing = r'.core.prevailing
  weathers : o ≠ some .weather → r.core.weathers.list = r'.core.weathers.list
  weather : o = some .weather → OneOff r.core.weathers.list r'.core.weathers.list
  clouds : o ≠ some .cloud → r.core.clouds.list = r'.core.clouds.list
  cloud : o = some .cloud → OneOff r.core.clouds.list r'.core.clouds.list
  temperatures : o ≠ some .temperature → o ≠ some .time →
    r.maxTemperatures.list = r'.maxTemperatures.list ∧ r.minTemperatures.list = r'.minTemperatures.list

end Verif.Spec
