import Verif.Lemmas.Attr

/-
The attributes of a METAR: which handlers set them, and from which groups they come.
-/

namespace Verif

/-- The handlers at the other positions leave an attribute alone. -/
structure Metar.Effect (j : Nat) (r r' : Metar) : Prop where
  type : j ≠ 0 → r'.type = r.type
  station : j ≠ 1 → r'.station = r.station
  time : j ≠ 2 → r'.time = r.time
  modifier : j ≠ 3 → r'.modifier = r.modifier
  wind : j ≠ 4 → r'.core.wind = r.core.wind
  windVariation : j ≠ 5 → r'.windVariation = r.windVariation
  prevailing : j ≠ 6 → r'.core.prevailing = r.core.prevailing
  minimum : j ≠ 7 → r'.minimumVisibility = r.minimumVisibility
  ranges : j < 8 ∨ 10 < j → r'.runwayRanges = r.runwayRanges
  weathers : j < 11 ∨ 13 < j → r'.core.weathers = r.core.weathers
  clouds : j < 14 ∨ 17 < j → r'.core.clouds = r.core.clouds
  temperatures : j ≠ 18 → r'.temperatures = r.temperatures
  pressure : j < 19 ∨ 20 < j → r'.pressure = r.pressure
  recent : j ≠ 21 → r'.recentWeather = r.recentWeather
  windshears : j < 22 ∨ 24 < j → r'.windshears = r.windshears
  sea : j ≠ 25 → r'.seaState = r.seaState
  runwayState : j ≠ 26 → r'.runwayState = r.runwayState

theorem Metar.effect {db : Database} {now : Now} {a : Args} {j : Nat} {h : Handler Metar}
    (hh : (Metar.handlers db now a)[j]? = some h) {m : Match} {r r' : Metar}
    (hr : h.run m r = .ok r') : Metar.Effect j r r' := by
  rw [← List.mk_mem_zipIdx_iff_getElem?] at hh
  simp only [Metar.handlers, List.zipIdx_cons, List.zipIdx_nil, List.mem_cons, Prod.mk.injEq,
    List.not_mem_nil, or_false, Nat.zero_add, Nat.reduceAdd] at hh
  rcases hh with ⟨rfl, rfl⟩ | ⟨rfl, rfl⟩ | ⟨rfl, rfl⟩ | ⟨rfl, rfl⟩ | ⟨rfl, rfl⟩ | ⟨rfl, rfl⟩ |
    ⟨rfl, rfl⟩ | ⟨rfl, rfl⟩ | ⟨rfl, rfl⟩ | ⟨rfl, rfl⟩ | ⟨rfl, rfl⟩ | ⟨rfl, rfl⟩ | ⟨rfl, rfl⟩ |
    ⟨rfl, rfl⟩ | ⟨rfl, rfl⟩ | ⟨rfl, rfl⟩ | ⟨rfl, rfl⟩ | ⟨rfl, rfl⟩ | ⟨rfl, rfl⟩ | ⟨rfl, rfl⟩ |
    ⟨rfl, rfl⟩ | ⟨rfl, rfl⟩ | ⟨rfl, rfl⟩ | ⟨rfl, rfl⟩ | ⟨rfl, rfl⟩ | ⟨rfl, rfl⟩ | ⟨rfl, rfl⟩ <;>
  (run_open hr; run_effect hr)

/-- How the attributes of a METAR follow from the groups decoded in its body; `r0` is the report
before the body is parsed. -/
structure Metar.Reading (db : Database) (now : Now) (a : Args) (c : List (PyStr × Nat))
    (r0 r : Metar) : Prop where
  type : Spec.FromGroup c 0 MetarRegExp.TYPE (fun m => .ok (ReportType.new m.string)) r0.type r.type
  station : Spec.FromGroup c 1 MetarRegExp.STATION (fun m => Station.new db (some m.string) py!"ICAO") r0.station r.station
  time : Spec.FromGroup c 2 MetarRegExp.TIME (fun m => Time.fromMetar now (some m) a.year a.month) r0.time r.time
  modifier : Spec.FromGroup c 3 MetarRegExp.MODIFIER (fun m => .ok (Modifier.new (some m.string))) r0.modifier r.modifier
  wind : Spec.FromGroup c 4 MetarRegExp.WIND (MetarWind.new) r0.core.wind r.core.wind
  windVariation : Spec.FromGroup c 5 MetarRegExp.WIND_VARIATION (WindVariation.new) r0.windVariation r.windVariation
  prevailing : Spec.FromGroup c 6 MetarRegExp.VISIBILITY (Verif.prevailing) r0.core.prevailing r.core.prevailing
  minimum : Spec.FromGroup c 7 MetarRegExp.MINIMUM_VISIBILITY (Verif.minimumVisibility) r0.minimumVisibility r.minimumVisibility
  ranges : Spec.FromGroups c 8 10 MetarRegExp.RUNWAY_RANGE (RunwayRange.new) r.runwayRanges.list ∧
    r.runwayRanges.n = 0
  weathers : Spec.FromGroups c 11 13 MetarRegExp.WEATHER (fun m => .ok (Weather.new m)) r.core.weathers.list ∧
    r.core.weathers.n = 0
  clouds : Spec.FromGroups c 14 17 MetarRegExp.CLOUD (Cloud.fromMetar) r.core.clouds.list ∧
    r.core.clouds.n = 0
  temperatures : Spec.FromGroup c 18 MetarRegExp.TEMPERATURES (Temperatures.new) r0.temperatures r.temperatures
  pressure : Spec.FromLast c 19 20 MetarRegExp.PRESSURE MetarPressure.new r0.pressure r.pressure
  recent : Spec.FromGroup c 21 MetarRegExp.RECENT_WEATHER (fun m => .ok (RecentWeather.new m)) r0.recentWeather r.recentWeather
  windshears : Spec.FromGroups c 22 24 MetarRegExp.WINDSHEAR (fun m => .ok (Windshear.new m)) r.windshears.list ∧
    r.windshears.n = 0
  sea : Spec.FromGroup c 25 MetarRegExp.SEA_STATE (SeaState.new) r0.seaState r.seaState
  runwayState : Spec.FromGroup c 26 MetarRegExp.RUNWAY_STATE (fun m => .ok (RunwayState.new m)) r0.runwayState r.runwayState

theorem Metar.reading {db : Database} {now : Now} {a : Args} {c : List (PyStr × Nat)}
    {r0 r : Metar} (hr : Spec.Runs (Metar.handlers db now a) c r0 (.ok r)) (ho : Ordered c)
    (hranges : r0.runwayRanges.list = [] ∧ r0.runwayRanges.n = 0)
    (hweathers : r0.core.weathers.list = [] ∧ r0.core.weathers.n = 0)
    (hclouds : r0.core.clouds.list = [] ∧ r0.core.clouds.n = 0)
    (hwindshears : r0.windshears.list = [] ∧ r0.windshears.n = 0) :
    Metar.Reading db now a c r0 r := by
  constructor
  · refine hr.single ho rfl ?_ (fun j hj h hh m s s' hs => (Metar.effect hh hs).type hj)
    intro h hh m s s' hs
    cases hh
    run_set hs
  · refine hr.single ho rfl ?_ (fun j hj h hh m s s' hs => (Metar.effect hh hs).station hj)
    intro h hh m s s' hs
    cases hh
    run_set hs
  · refine hr.single ho rfl ?_ (fun j hj h hh m s s' hs => (Metar.effect hh hs).time hj)
    intro h hh m s s' hs
    cases hh
    run_set hs
  · refine hr.single ho rfl ?_ (fun j hj h hh m s s' hs => (Metar.effect hh hs).modifier hj)
    intro h hh m s s' hs
    cases hh
    run_set hs
  · refine hr.single ho rfl ?_ (fun j hj h hh m s s' hs => (Metar.effect hh hs).wind hj)
    intro h hh m s s' hs
    cases hh
    run_set hs
  · refine hr.single ho rfl ?_ (fun j hj h hh m s s' hs => (Metar.effect hh hs).windVariation hj)
    intro h hh m s s' hs
    cases hh
    run_set hs
  · refine hr.single ho rfl ?_ (fun j hj h hh m s s' hs => (Metar.effect hh hs).prevailing hj)
    intro h hh m s s' hs
    cases hh
    run_set hs
  · refine hr.single ho rfl ?_ (fun j hj h hh m s s' hs => (Metar.effect hh hs).minimum hj)
    intro h hh m s s' hs
    cases hh
    run_set hs
  · have hk := hr.many (get := fun r => r.runwayRanges.list) (lo := 8) (hi := 10)
      (f := RunwayRange.new) (r := MetarRegExp.RUNWAY_RANGE) ?_ ?_
      (fun j hj h hh m s s' hs => congrArg GroupList.list ((Metar.effect hh hs).ranges hj))
    · obtain ⟨xs, e1, e2⟩ := hk
      refine ⟨by rw [e1, hranges.1]; exact e2, ?_⟩
      rw [← hranges.2]
      refine hr.keep (get := fun r => r.runwayRanges.n) (fun y _ h hh m s s' hs => ?_)
      by_cases hy : y.2 < 8 ∨ 10 < y.2
      · exact congrArg GroupList.n ((Metar.effect hh hs).ranges hy)
      · have : y.2 = 8 ∨ y.2 = 9 ∨ y.2 = 10 := by omega
        rcases this with hy | hy | hy <;> rw [hy] at hh <;> cases hh <;> run_cursor hs
    · intro i h h1 h2 hh
      have : i = 8 ∨ i = 9 ∨ i = 10 := by omega
      rcases this with rfl | rfl | rfl <;> cases hh <;> rfl
    · intro i h h1 h2 hh m s s' hs
      have : i = 8 ∨ i = 9 ∨ i = 10 := by omega
      rcases this with rfl | rfl | rfl <;> cases hh <;> run_add hs
  · have hk := hr.many (get := fun r => r.core.weathers.list) (lo := 11) (hi := 13)
      (f := fun m => .ok (Weather.new m)) (r := MetarRegExp.WEATHER) ?_ ?_
      (fun j hj h hh m s s' hs => congrArg GroupList.list ((Metar.effect hh hs).weathers hj))
    · obtain ⟨xs, e1, e2⟩ := hk
      refine ⟨by rw [e1, hweathers.1]; exact e2, ?_⟩
      rw [← hweathers.2]
      refine hr.keep (get := fun r => r.core.weathers.n) (fun y _ h hh m s s' hs => ?_)
      by_cases hy : y.2 < 11 ∨ 13 < y.2
      · exact congrArg GroupList.n ((Metar.effect hh hs).weathers hy)
      · have : y.2 = 11 ∨ y.2 = 12 ∨ y.2 = 13 := by omega
        rcases this with hy | hy | hy <;> rw [hy] at hh <;> cases hh <;> run_cursor hs
    · intro i h h1 h2 hh
      have : i = 11 ∨ i = 12 ∨ i = 13 := by omega
      rcases this with rfl | rfl | rfl <;> cases hh <;> rfl
    · intro i h h1 h2 hh m s s' hs
      have : i = 11 ∨ i = 12 ∨ i = 13 := by omega
      rcases this with rfl | rfl | rfl <;> cases hh <;> run_add hs
  · have hk := hr.many (get := fun r => r.core.clouds.list) (lo := 14) (hi := 17)
      (f := Cloud.fromMetar) (r := MetarRegExp.CLOUD) ?_ ?_
      (fun j hj h hh m s s' hs => congrArg GroupList.list ((Metar.effect hh hs).clouds hj))
    · obtain ⟨xs, e1, e2⟩ := hk
      refine ⟨by rw [e1, hclouds.1]; exact e2, ?_⟩
      rw [← hclouds.2]
      refine hr.keep (get := fun r => r.core.clouds.n) (fun y _ h hh m s s' hs => ?_)
      by_cases hy : y.2 < 14 ∨ 17 < y.2
      · exact congrArg GroupList.n ((Metar.effect hh hs).clouds hy)
      · have : y.2 = 14 ∨ y.2 = 15 ∨ y.2 = 16 ∨ y.2 = 17 := by omega
        rcases this with hy | hy | hy | hy <;> rw [hy] at hh <;> cases hh <;> run_cursor hs
    · intro i h h1 h2 hh
      have : i = 14 ∨ i = 15 ∨ i = 16 ∨ i = 17 := by omega
      rcases this with rfl | rfl | rfl | rfl <;> cases hh <;> rfl
    · intro i h h1 h2 hh m s s' hs
      have : i = 14 ∨ i = 15 ∨ i = 16 ∨ i = 17 := by omega
      rcases this with rfl | rfl | rfl | rfl <;> cases hh <;> run_add hs
  · refine hr.single ho rfl ?_ (fun j hj h hh m s s' hs => (Metar.effect hh hs).temperatures hj)
    intro h hh m s s' hs
    cases hh
    run_set hs
  · refine hr.last ?_ ?_ (fun j hj h hh m s s' hs => (Metar.effect hh hs).pressure hj)
    · intro i h h1 h2 hh
      have : i = 19 ∨ i = 20 := by omega
      rcases this with rfl | rfl <;> cases hh <;> rfl
    · intro i h h1 h2 hh m s s' hs
      have : i = 19 ∨ i = 20 := by omega
      rcases this with rfl | rfl <;> cases hh <;> run_set hs
  · refine hr.single ho rfl ?_ (fun j hj h hh m s s' hs => (Metar.effect hh hs).recent hj)
    intro h hh m s s' hs
    cases hh
    run_set hs
  · have hk := hr.many (get := fun r => r.windshears.list) (lo := 22) (hi := 24)
      (f := fun m => .ok (Windshear.new m)) (r := MetarRegExp.WINDSHEAR) ?_ ?_
      (fun j hj h hh m s s' hs => congrArg GroupList.list ((Metar.effect hh hs).windshears hj))
    · obtain ⟨xs, e1, e2⟩ := hk
      refine ⟨by rw [e1, hwindshears.1]; exact e2, ?_⟩
      rw [← hwindshears.2]
      refine hr.keep (get := fun r => r.windshears.n) (fun y _ h hh m s s' hs => ?_)
      by_cases hy : y.2 < 22 ∨ 24 < y.2
      · exact congrArg GroupList.n ((Metar.effect hh hs).windshears hy)
      · have : y.2 = 22 ∨ y.2 = 23 ∨ y.2 = 24 := by omega
        rcases this with hy | hy | hy <;> rw [hy] at hh <;> cases hh <;> run_cursor hs
    · intro i h h1 h2 hh
      have : i = 22 ∨ i = 23 ∨ i = 24 := by omega
      rcases this with rfl | rfl | rfl <;> cases hh <;> rfl
    · intro i h h1 h2 hh m s s' hs
      have : i = 22 ∨ i = 23 ∨ i = 24 := by omega
      rcases this with rfl | rfl | rfl <;> cases hh <;> run_add hs
  · refine hr.single ho rfl ?_ (fun j hj h hh m s s' hs => (Metar.effect hh hs).sea hj)
    intro h hh m s s' hs
    cases hh
    run_set hs
  · refine hr.single ho rfl ?_ (fun j hj h hh m s s' hs => (Metar.effect hh hs).runwayState hj)
    intro h hh m s s' hs
    cases hh
    run_set hs

end Verif
