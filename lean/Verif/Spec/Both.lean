import Verif.Spec.Ambiguity
import Verif.Spec.Report

/-
Specification for C108: groups that only one kind of report has.
-/

namespace Verif.Spec

/-- A group that only a TAF has: valid period, cancellation, extreme temperature. -/
def TafOnly (w : PyStr) : Prop :=
  ∃ k ∈ [TafKind.valid, .cancelled, .temperature], Admits k.pattern w

/-- A group that only a METAR has: variation of the wind, runway visual range, wind shear, states of sea and runway,
temperatures unless they begin with M, pressure with a letter in front. -/
inductive MetarOnly (w : PyStr) : Prop
  | plain {k : MetarKind} : k ∈ [MetarKind.variation, .range, .shear, .sea, .runway] → Admits k.pattern w → MetarOnly w
  | temperatures : Admits MetarKind.temperatures.pattern w → w.head? ≠ some 77 → MetarOnly w
  | pressure : Admits MetarKind.pressure.pattern w → w.head? = some 65 ∨ w.head? = some 81 → MetarOnly w

/-- What a METAR and a TAF made from one text have in common, and that nothing else was decoded in them. NIL is a
modifier of a METAR and a group of its own in a TAF. -/
structure SameContent (r : Metar) (r' : Taf) : Prop where
  type : r.type = r'.type ∨ r.type.code = some py!"METAR" ∧ r'.type.code = some py!"TAF"
  station : r.station = r'.station
  wind : r.core.wind = r'.core.wind
  visibility : r.core.prevailing = r'.core.prevailing
  weathers : r.core.weathers.list = r'.core.weathers.list
  clouds : r.core.clouds.list = r'.core.clouds.list
  rules : r.core.flightRules = r'.core.flightRules
  timeCode : r.time.code = r'.time.code
  missing : r.modifier.code = r'.missing.mod.code
  tafRest : r'.modifier.code = none ∧ r'.valid.code = none ∧ r'.cancelled.code = none ∧
    r'.maxTemperatures.list = [] ∧ r'.minTemperatures.list = []
  metarRest : r.windVariation.code = none ∧ r.minimumVisibility.code = none ∧ r.runwayRanges.list = [] ∧
    r.temperatures.code = none ∧ r.pressure.code = none ∧ r.recentWeather.code = none ∧ r.windshears.list = [] ∧
    r.seaState.code = none ∧ r.runwayState.code = none

end Verif.Spec
