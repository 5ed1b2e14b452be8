import Verif.Spec.Report
import Verif.Spec.Ambiguity

/-
Specification for C110: two reports, the second with some of the groups of the first.
-/

namespace Verif.Spec

/-- The decoded groups, each with its kind. -/
def withKinds {κ : Type} (ks : List κ) (c : List (PyStr × Nat)) : List (PyStr × Option κ) :=
  c.map fun x => (x.1, ks[x.2]?)

/-- Each group of `d` is of the first kind that accepts it, of those behind the groups `c0`. -/
def FirstOfKind {κ : Type} (ks : List κ) (p : κ → RE) (c0 d : List (PyStr × Nat)) : Prop :=
  ∀ x ∈ d, ∀ j k, j < x.2 → (∀ y ∈ c0, y.2 < j) → ks[j]? = some k → Admits (p k) x.1 → ks[x.2]? = some k

/-- An attribute read at place `i` is the same, or it has the default value as its group was left out. -/
def SameOrGone {α : Type} (c c' : List (PyStr × Nat)) (i : Nat) (d x x' : α) : Prop :=
  x' = x ∨ (x' = d ∧ (∃ g, (g, i) ∈ c) ∧ ∀ g, (g, i) ∉ c')

/-- The METAR `r'` has nothing that `r` does not have. -/
structure MetarLess (c c' : List (PyStr × Nat)) (r r' : Metar) : Prop where
  type : SameOrGone c c' 0 (ReportType.new py!"METAR") r.type r'.type
  station : SameOrGone c c' 1 ⟨none, none⟩ r.station r'.station
  time : r'.time = r.time ∨ ((∃ g, (g, 2) ∈ c) ∧ ∀ g, (g, 2) ∉ c')
  modifier : SameOrGone c c' 3 (Modifier.new none) r.modifier r'.modifier
  wind : SameOrGone c c' 4 MetarWind.none r.core.wind r'.core.wind
  windVariation : SameOrGone c c' 5 WindVariation.none r.windVariation r'.windVariation
  prevailing : SameOrGone c c' 6 Visibility.none r.core.prevailing r'.core.prevailing
  minimum : SameOrGone c c' 7 Visibility.none r.minimumVisibility r'.minimumVisibility
  ranges : r'.runwayRanges.list.Sublist r.runwayRanges.list
  weathers : r'.core.weathers.list.Sublist r.core.weathers.list
  clouds : r'.core.clouds.list.Sublist r.core.clouds.list
  temperatures : SameOrGone c c' 18 ⟨none, none, none⟩ r.temperatures r'.temperatures
  pressure : (taken c' 19 20).Sublist (taken c 19 20) ∧
    ((taken c' 19 20).getLast? = (taken c 19 20).getLast? → r'.pressure = r.pressure)
  recent : SameOrGone c c' 21 RecentWeather.none r.recentWeather r'.recentWeather
  windshears : r'.windshears.list.Sublist r.windshears.list
  sea : SameOrGone c c' 25 ⟨none, none, none, none⟩ r.seaState r'.seaState
  runwayState : SameOrGone c c' 26 RunwayState.none r.runwayState r'.runwayState

/-- The TAF `r'` has nothing that `r` does not have. Valid period and temperatures need the time. -/
structure TafLess (c c' : List (PyStr × Nat)) (r r' : Taf) : Prop where
  type : SameOrGone c c' 0 (ReportType.new py!"TAF") r.type r'.type
  modifier : SameOrGone c c' 1 (Modifier.new none) r.modifier r'.modifier
  station : SameOrGone c c' 2 ⟨none, none⟩ r.station r'.station
  time : r'.time = r.time ∨ ((∃ g, (g, 3) ∈ c) ∧ ∀ g, (g, 3) ∉ c')
  missing : SameOrGone c c' 4 (Missing.new none) r.missing r'.missing
  valid : r'.time = r.time → r'.valid = r.valid ∨ ((∃ g, (g, 5) ∈ c) ∧ ∀ g, (g, 5) ∉ c')
  cancelled : SameOrGone c c' 6 (Cancelled.new none) r.cancelled r'.cancelled
  wind : SameOrGone c c' 7 MetarWind.none r.core.wind r'.core.wind
  prevailing : SameOrGone c c' 8 Visibility.none r.core.prevailing r'.core.prevailing
  weathers : r'.core.weathers.list.Sublist r.core.weathers.list
  clouds : r'.core.clouds.list.Sublist r.core.clouds.list
  temperatures : r'.time = r.time → r'.maxTemperatures.list.Sublist r.maxTemperatures.list ∧
    r'.minTemperatures.list.Sublist r.minTemperatures.list

/-- The conditions of a trend or change, with the wind at place `k`: `r'` has nothing that `r` does not have. -/
structure ForecastLess (k : Nat) (c c' : List (PyStr × Nat)) (r r' : Core) : Prop where
  wind : SameOrGone c c' k MetarWind.none r.wind r'.wind
  prevailing : SameOrGone c c' (k + 1) Visibility.none r.prevailing r'.prevailing
  weathers : r'.weathers.list.Sublist r.weathers.list
  clouds : r'.clouds.list.Sublist r.clouds.list

end Verif.Spec
