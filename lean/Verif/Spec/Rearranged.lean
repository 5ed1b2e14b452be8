import Verif.Spec.Own
import Verif.Spec.Ambiguity

/-
Specification for C100: two reports with the same groups in another order.
-/

namespace Verif.Spec

/-- A group that both reports decode is read as the same kind of group in both. -/
def SameKinds {κ : Type} (order : List κ) (c c' : List (PyStr × Nat)) : Prop :=
  ∀ w i j, (w, i) ∈ c → (w, j) ∈ c' → order[i]? = order[j]?

/-- The kinds of the decoded groups, in order. -/
def kinds {κ : Type} (order : List κ) (c : List (PyStr × Nat)) : List (Option κ) := c.map fun x => order[x.2]?

/-- Attributes of two METARs with the same groups in another order: nothing differs but the order of the
members of the lists, and the pressure if there are two. -/
structure MetarRearranged (c : List (PyStr × Nat)) (r r' : Metar) : Prop where
  type : r.type = r'.type
  station : r.station = r'.station
  time : r.time = r'.time
  modifier : r.modifier = r'.modifier
  wind : r.core.wind = r'.core.wind
  windVariation : r.windVariation = r'.windVariation
  prevailing : r.core.prevailing = r'.core.prevailing
  minimum : r.minimumVisibility = r'.minimumVisibility
  ranges : r.runwayRanges.list.Perm r'.runwayRanges.list
  weathers : r.core.weathers.list.Perm r'.core.weathers.list
  clouds : r.core.clouds.list.Perm r'.core.clouds.list
  temperatures : r.temperatures = r'.temperatures
  pressure : (taken c 19 20).length ≤ 1 → r.pressure = r'.pressure
  recent : r.recentWeather = r'.recentWeather
  windshears : r.windshears.list.Perm r'.windshears.list
  sea : r.seaState = r'.seaState
  runwayState : r.runwayState = r'.runwayState

/-- Those of two TAFs. -/
structure TafRearranged (r r' : Taf) : Prop where
  type : r.type = r'.type
  modifier : r.modifier = r'.modifier
  station : r.station = r'.station
  time : r.time = r'.time
  missing : r.missing = r'.missing
  valid : r.valid = r'.valid
  cancelled : r.cancelled = r'.cancelled
  wind : r.core.wind = r'.core.wind
  prevailing : r.core.prevailing = r'.core.prevailing
  weathers : r.core.weathers.list.Perm r'.core.weathers.list
  clouds : r.core.clouds.list.Perm r'.core.clouds.list
  maxTemperatures : r.maxTemperatures.list.Perm r'.maxTemperatures.list
  minTemperatures : r.minTemperatures.list.Perm r'.minTemperatures.list

/-- Those of two trends or changes. -/
structure ForecastRearranged (f f' : Core) : Prop where
  wind : f.wind = f'.wind
  prevailing : f.prevailing = f'.prevailing
  weathers : f.weathers.list.Perm f'.weathers.list
  clouds : f.clouds.list.Perm f'.clouds.list

/-- The same meaning and the same times; only the code may differ. -/
structure SamePeriods (i i' : TrendIndicator) : Prop where
  init : i.init = i'.init
  end_ : i.end_ = i'.end_
  translation : i.translation = i'.translation
  from_ : i.from_ = i'.from_
  until_ : i.until_ = i'.until_
  at_ : i.at_ = i'.at_

end Verif.Spec
