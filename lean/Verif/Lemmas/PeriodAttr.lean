import Verif.Lemmas.Attr

/-
The attributes of METAR trends and TAF changes: which handlers set them, and from which groups they
come.
-/

namespace Verif

/-- The handlers at the other positions leave an attribute alone. -/
structure ChangePeriod.Effect (j : Nat) (p p' : ChangePeriod) : Prop where
  wind : j ≠ 3 → p'.core.wind = p.core.wind
  prevailing : j ≠ 4 → p'.core.prevailing = p.core.prevailing
  weathers : j < 5 ∨ 7 < j → p'.core.weathers = p.core.weathers
  clouds : j < 8 ∨ 11 < j → p'.core.clouds = p.core.clouds
  indicator : 2 < j → p'.indicator = p.indicator
  code : p'.code = p.code
  time : p'.time = p.time
  unparsed : p'.unparsed = p.unparsed

theorem ChangePeriod.effect {j : Nat} {h : Handler ChangePeriod}
    (hh : ChangePeriod.handlers[j]? = some h) {m : Match} {p p' : ChangePeriod}
    (hr : h.run m p = .ok p') : ChangePeriod.Effect j p p' := by
  rw [← List.mk_mem_zipIdx_iff_getElem?] at hh
  simp only [ChangePeriod.handlers, List.zipIdx_cons, List.zipIdx_nil, List.mem_cons, Prod.mk.injEq,
    List.not_mem_nil, or_false, Nat.zero_add, Nat.reduceAdd] at hh
  rcases hh with ⟨rfl, rfl⟩ | ⟨rfl, rfl⟩ | ⟨rfl, rfl⟩ | ⟨rfl, rfl⟩ | ⟨rfl, rfl⟩ | ⟨rfl, rfl⟩ | ⟨rfl, rfl⟩ |
    ⟨rfl, rfl⟩ | ⟨rfl, rfl⟩ | ⟨rfl, rfl⟩ | ⟨rfl, rfl⟩ | ⟨rfl, rfl⟩ <;>
  (run_open hr; run_effect hr)

/-- How the attributes of a METAR trend follow from its groups. -/
structure ChangePeriod.Reading (c : List (PyStr × Nat))
    (p0 p : ChangePeriod) : Prop where
  wind : Spec.FromGroup c 3 MetarRegExp.WIND (MetarWind.new)
    p0.core.wind p.core.wind
  prevailing : Spec.FromGroup c 4 MetarRegExp.VISIBILITY (Verif.prevailing)
    p0.core.prevailing p.core.prevailing
  weathers : Spec.FromGroups c 5 7 MetarRegExp.WEATHER (fun m => .ok (Weather.new m))
    p.core.weathers.list ∧ p.core.weathers.n = 0
  clouds : Spec.FromGroups c 8 11 MetarRegExp.CLOUD (Cloud.fromMetar)
    p.core.clouds.list ∧ p.core.clouds.n = 0

theorem ChangePeriod.reading {c : List (PyStr × Nat)}
    {p0 p : ChangePeriod} (hr : Spec.Runs ChangePeriod.handlers c p0 (.ok p)) (ho : Ordered c)
    (hweathers : p0.core.weathers.list = [] ∧ p0.core.weathers.n = 0)
    (hclouds : p0.core.clouds.list = [] ∧ p0.core.clouds.n = 0) :
    ChangePeriod.Reading c p0 p := by
  constructor
  · refine hr.single ho rfl ?_ (fun j hj h hh m s s' hs => (ChangePeriod.effect hh hs).wind hj)
    intro h hh m s s' hs
    cases hh
    run_set hs
  · refine hr.single ho rfl ?_ (fun j hj h hh m s s' hs => (ChangePeriod.effect hh hs).prevailing hj)
    intro h hh m s s' hs
    cases hh
    run_set hs
  · have hk := hr.many (get := fun r => r.core.weathers.list) (lo := 5) (hi := 7)
      (f := fun m => .ok (Weather.new m)) (r := MetarRegExp.WEATHER) ?_ ?_
      (fun j hj h hh m s s' hs => congrArg GroupList.list ((ChangePeriod.effect hh hs).weathers hj))
    · obtain ⟨xs, e1, e2⟩ := hk
      refine ⟨by rw [e1, hweathers.1]; exact e2, ?_⟩
      rw [← hweathers.2]
      refine hr.keep (get := fun r => r.core.weathers.n) (fun y _ h hh m s s' hs => ?_)
      by_cases hy : y.2 < 5 ∨ 7 < y.2
      · exact congrArg GroupList.n ((ChangePeriod.effect hh hs).weathers hy)
      · have : y.2 = 5 ∨ y.2 = 6 ∨ y.2 = 7 := by omega
        rcases this with hy | hy | hy <;> rw [hy] at hh <;> cases hh <;>
        run_cursor hs
    · intro i h h1 h2 hh
      have : i = 5 ∨ i = 6 ∨ i = 7 := by omega
      rcases this with rfl | rfl | rfl <;> cases hh <;> rfl
    · intro i h h1 h2 hh m s s' hs
      have : i = 5 ∨ i = 6 ∨ i = 7 := by omega
      rcases this with rfl | rfl | rfl <;> cases hh <;> run_add hs
  · have hk := hr.many (get := fun r => r.core.clouds.list) (lo := 8) (hi := 11)
      (f := Cloud.fromMetar) (r := MetarRegExp.CLOUD) ?_ ?_
      (fun j hj h hh m s s' hs => congrArg GroupList.list ((ChangePeriod.effect hh hs).clouds hj))
    · obtain ⟨xs, e1, e2⟩ := hk
      refine ⟨by rw [e1, hclouds.1]; exact e2, ?_⟩
      rw [← hclouds.2]
      refine hr.keep (get := fun r => r.core.clouds.n) (fun y _ h hh m s s' hs => ?_)
      by_cases hy : y.2 < 8 ∨ 11 < y.2
      · exact congrArg GroupList.n ((ChangePeriod.effect hh hs).clouds hy)
      · have : y.2 = 8 ∨ y.2 = 9 ∨ y.2 = 10 ∨ y.2 = 11 := by omega
        rcases this with hy | hy | hy | hy <;> rw [hy] at hh <;> cases hh <;>
        run_cursor hs
    · intro i h h1 h2 hh
      have : i = 8 ∨ i = 9 ∨ i = 10 ∨ i = 11 := by omega
      rcases this with rfl | rfl | rfl | rfl <;> cases hh <;> rfl
    · intro i h h1 h2 hh m s s' hs
      have : i = 8 ∨ i = 9 ∨ i = 10 ∨ i = 11 := by omega
      rcases this with rfl | rfl | rfl | rfl <;> cases hh <;> run_add hs

/-- The handlers at the other positions leave an attribute alone. -/
structure ChangeForecasted.Effect (j : Nat) (p p' : ChangeForecasted) : Prop where
  wind : j ≠ 2 → p'.core.wind = p.core.wind
  prevailing : j ≠ 3 → p'.core.prevailing = p.core.prevailing
  weathers : j < 4 ∨ 6 < j → p'.core.weathers = p.core.weathers
  clouds : j < 7 ∨ 10 < j → p'.core.clouds = p.core.clouds
  indicator : 1 < j → p'.indicator = p.indicator
  code : p'.code = p.code
  valid : p'.valid = p.valid
  unparsed : p'.unparsed = p.unparsed

theorem ChangeForecasted.effect {j : Nat} {h : Handler ChangeForecasted}
    (hh : ChangeForecasted.handlers[j]? = some h) {m : Match} {p p' : ChangeForecasted}
    (hr : h.run m p = .ok p') : ChangeForecasted.Effect j p p' := by
  rw [← List.mk_mem_zipIdx_iff_getElem?] at hh
  simp only [ChangeForecasted.handlers, List.zipIdx_cons, List.zipIdx_nil, List.mem_cons, Prod.mk.injEq,
    List.not_mem_nil, or_false, Nat.zero_add, Nat.reduceAdd] at hh
  rcases hh with ⟨rfl, rfl⟩ | ⟨rfl, rfl⟩ | ⟨rfl, rfl⟩ | ⟨rfl, rfl⟩ | ⟨rfl, rfl⟩ | ⟨rfl, rfl⟩ | ⟨rfl, rfl⟩ |
    ⟨rfl, rfl⟩ | ⟨rfl, rfl⟩ | ⟨rfl, rfl⟩ | ⟨rfl, rfl⟩ <;>
  (run_open hr; run_effect hr)

/-- How the attributes of a TAF change follow from its groups. -/
structure ChangeForecasted.Reading (c : List (PyStr × Nat))
    (p0 p : ChangeForecasted) : Prop where
  wind : Spec.FromGroup c 2 TafRegExp.WIND (MetarWind.new)
    p0.core.wind p.core.wind
  prevailing : Spec.FromGroup c 3 MetarRegExp.VISIBILITY (Verif.prevailing)
    p0.core.prevailing p.core.prevailing
  weathers : Spec.FromGroups c 4 6 MetarRegExp.WEATHER (fun m => .ok (Weather.new m))
    p.core.weathers.list ∧ p.core.weathers.n = 0
  clouds : Spec.FromGroups c 7 10 MetarRegExp.CLOUD (Cloud.fromMetar)
    p.core.clouds.list ∧ p.core.clouds.n = 0

theorem ChangeForecasted.reading {c : List (PyStr × Nat)}
    {p0 p : ChangeForecasted} (hr : Spec.Runs ChangeForecasted.handlers c p0 (.ok p)) (ho : Ordered c)
    (hweathers : p0.core.weathers.list = [] ∧ p0.core.weathers.n = 0)
    (hclouds : p0.core.clouds.list = [] ∧ p0.core.clouds.n = 0) :
    ChangeForecasted.Reading c p0 p := by
  constructor
  · refine hr.single ho rfl ?_ (fun j hj h hh m s s' hs => (ChangeForecasted.effect hh hs).wind hj)
    intro h hh m s s' hs
    cases hh
    run_set hs
  · refine hr.single ho rfl ?_ (fun j hj h hh m s s' hs => (ChangeForecasted.effect hh hs).prevailing hj)
    intro h hh m s s' hs
    cases hh
    run_set hs
  · have hk := hr.many (get := fun r => r.core.weathers.list) (lo := 4) (hi := 6)
      (f := fun m => .ok (Weather.new m)) (r := MetarRegExp.WEATHER) ?_ ?_
      (fun j hj h hh m s s' hs => congrArg GroupList.list ((ChangeForecasted.effect hh hs).weathers hj))
    · obtain ⟨xs, e1, e2⟩ := hk
      refine ⟨by rw [e1, hweathers.1]; exact e2, ?_⟩
      rw [← hweathers.2]
      refine hr.keep (get := fun r => r.core.weathers.n) (fun y _ h hh m s s' hs => ?_)
      by_cases hy : y.2 < 4 ∨ 6 < y.2
      · exact congrArg GroupList.n ((ChangeForecasted.effect hh hs).weathers hy)
      · have : y.2 = 4 ∨ y.2 = 5 ∨ y.2 = 6 := by omega
        rcases this with hy | hy | hy <;> rw [hy] at hh <;> cases hh <;>
        run_cursor hs
    · intro i h h1 h2 hh
      have : i = 4 ∨ i = 5 ∨ i = 6 := by omega
      rcases this with rfl | rfl | rfl <;> cases hh <;> rfl
    · intro i h h1 h2 hh m s s' hs
      have : i = 4 ∨ i = 5 ∨ i = 6 := by omega
      rcases this with rfl | rfl | rfl <;> cases hh <;> run_add hs
  · have hk := hr.many (get := fun r => r.core.clouds.list) (lo := 7) (hi := 10)
      (f := Cloud.fromMetar) (r := MetarRegExp.CLOUD) ?_ ?_
      (fun j hj h hh m s s' hs => congrArg GroupList.list ((ChangeForecasted.effect hh hs).clouds hj))
    · obtain ⟨xs, e1, e2⟩ := hk
      refine ⟨by rw [e1, hclouds.1]; exact e2, ?_⟩
      rw [← hclouds.2]
      refine hr.keep (get := fun r => r.core.clouds.n) (fun y _ h hh m s s' hs => ?_)
      by_cases hy : y.2 < 7 ∨ 10 < y.2
      · exact congrArg GroupList.n ((ChangeForecasted.effect hh hs).clouds hy)
      · have : y.2 = 7 ∨ y.2 = 8 ∨ y.2 = 9 ∨ y.2 = 10 := by omega
        rcases this with hy | hy | hy | hy <;> rw [hy] at hh <;> cases hh <;>
        run_cursor hs
    · intro i h h1 h2 hh
      have : i = 7 ∨ i = 8 ∨ i = 9 ∨ i = 10 := by omega
      rcases this with rfl | rfl | rfl | rfl <;> cases hh <;> rfl
    · intro i h h1 h2 hh m s s' hs
      have : i = 7 ∨ i = 8 ∨ i = 9 ∨ i = 10 := by omega
      rcases this with rfl | rfl | rfl | rfl <;> cases hh <;> run_add hs

end Verif
