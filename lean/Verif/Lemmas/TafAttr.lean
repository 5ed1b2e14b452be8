import Verif.Lemmas.Attr

/-
The attributes of a TAF: which handlers set them, and from which groups they come.
-/

namespace Verif

/-- The handlers at the other positions leave an attribute alone. -/
structure Taf.Effect (j : Nat) (r r' : Taf) : Prop where
  type : j ≠ 0 → r'.type = r.type
  modifier : j ≠ 1 → r'.modifier = r.modifier
  station : j ≠ 2 → r'.station = r.station
  time : j ≠ 3 → r'.time = r.time
  missing : j ≠ 4 → r'.missing = r.missing
  valid : j ≠ 5 → r'.valid = r.valid
  cancelled : j ≠ 6 → r'.cancelled = r.cancelled
  wind : j ≠ 7 → r'.core.wind = r.core.wind
  prevailing : j ≠ 8 → r'.core.prevailing = r.core.prevailing
  weathers : j < 9 ∨ 11 < j → r'.core.weathers = r.core.weathers
  clouds : j < 12 ∨ 15 < j → r'.core.clouds = r.core.clouds
  maxTemperatures : j < 16 ∨ 19 < j → r'.maxTemperatures = r.maxTemperatures
  minTemperatures : j < 16 ∨ 19 < j → r'.minTemperatures = r.minTemperatures

theorem Taf.effect {db : Database} {now : Now} {a : Args} {j : Nat} {h : Handler Taf}
    (hh : (Taf.handlers db now a)[j]? = some h) {m : Match} {r r' : Taf}
    (hr : h.run m r = .ok r') : Taf.Effect j r r' := by
  rw [← List.mk_mem_zipIdx_iff_getElem?] at hh
  simp only [Taf.handlers, List.zipIdx_cons, List.zipIdx_nil, List.mem_cons, Prod.mk.injEq,
    List.not_mem_nil, or_false, Nat.zero_add, Nat.reduceAdd] at hh
  rcases hh with ⟨rfl, rfl⟩ | ⟨rfl, rfl⟩ | ⟨rfl, rfl⟩ | ⟨rfl, rfl⟩ | ⟨rfl, rfl⟩ | ⟨rfl, rfl⟩ | ⟨rfl, rfl⟩ |
    ⟨rfl, rfl⟩ | ⟨rfl, rfl⟩ | ⟨rfl, rfl⟩ | ⟨rfl, rfl⟩ | ⟨rfl, rfl⟩ | ⟨rfl, rfl⟩ | ⟨rfl, rfl⟩ |
    ⟨rfl, rfl⟩ | ⟨rfl, rfl⟩ | ⟨rfl, rfl⟩ | ⟨rfl, rfl⟩ | ⟨rfl, rfl⟩ | ⟨rfl, rfl⟩ <;>
    first
    | (run_open hr; run_effect hr)
    | (unfold Taf.handleTemperature at hr
       simp only [bind_ok] at hr
       obtain ⟨t, _, hr⟩ := hr
       split at hr <;> simp only [bind_ok, pure_ok] at hr <;> obtain ⟨_, _, rfl⟩ := hr <;>
       constructor <;> first | (intro _; rfl) | (intro hj; omega))

/-- A temperature group with the mark whether it is a maximum. -/
def tafTagged (time : DT) (m : Match) : Except Exc (Bool × TafTemperature) :=
  (TafTemperature.new m time).map fun t => (decide (m.group .type = some py!"X"), t)

/-- How the attributes of a TAF follow from the groups decoded in its body; `r0` is the report
before the body is parsed. -/
structure Taf.Reading (db : Database) (now : Now) (a : Args) (c : List (PyStr × Nat))
    (r0 r : Taf) : Prop where
  type : Spec.FromGroup c 0 MetarRegExp.TYPE (fun m => .ok (ReportType.new m.string))
    r0.type r.type
  modifier : Spec.FromGroup c 1 TafRegExp.AMD_COR (fun m => .ok (Modifier.new (some m.string)))
    r0.modifier r.modifier
  station : Spec.FromGroup c 2 MetarRegExp.STATION (fun m => Station.new db (some m.string) py!"ICAO")
    r0.station r.station
  time : Spec.FromGroup c 3 MetarRegExp.TIME (fun m => Time.fromMetar now (some m) a.year a.month)
    r0.time r.time
  missing : Spec.FromGroup c 4 TafRegExp.NIL (fun m => .ok (Missing.new (some m.string)))
    r0.missing r.missing
  valid : Spec.FromGroup c 5 TafRegExp.VALID (fun m => Valid.fromTaf (some m) r.time.time)
    r0.valid r.valid
  cancelled : Spec.FromGroup c 6 TafRegExp.CANCELLED (fun m => .ok (Cancelled.new (some m)))
    r0.cancelled r.cancelled
  wind : Spec.FromGroup c 7 TafRegExp.WIND (MetarWind.new)
    r0.core.wind r.core.wind
  prevailing : Spec.FromGroup c 8 TafRegExp.VISIBILITY (Verif.prevailing)
    r0.core.prevailing r.core.prevailing
  weathers : Spec.FromGroups c 9 11 MetarRegExp.WEATHER (fun m => .ok (Weather.new m))
    r.core.weathers.list ∧ r.core.weathers.n = 0
  clouds : Spec.FromGroups c 12 15 MetarRegExp.CLOUD (Cloud.fromMetar)
    r.core.clouds.list ∧ r.core.clouds.n = 0
  temperatures : ∃ ts : List (Bool × TafTemperature),
    Spec.FromGroups c 16 19 TafRegExp.TEMPERATURE (fun m => tafTagged r.time.time m) ts ∧
    r.maxTemperatures.list = (ts.filter (·.1)).map (·.2) ∧
    r.minTemperatures.list = (ts.filter (!·.1)).map (·.2)

theorem Taf.reading {db : Database} {now : Now} {a : Args} {c : List (PyStr × Nat)}
    {r0 r : Taf} (hr : Spec.Runs (Taf.handlers db now a) c r0 (.ok r)) (ho : Ordered c)
    (hweathers : r0.core.weathers.list = [] ∧ r0.core.weathers.n = 0)
    (hclouds : r0.core.clouds.list = [] ∧ r0.core.clouds.n = 0)
    (hmax : r0.maxTemperatures.list = []) (hmin : r0.minTemperatures.list = []) :
    Taf.Reading db now a c r0 r := by
  constructor
  · refine hr.single ho rfl ?_ (fun j hj h hh m s s' hs => (Taf.effect hh hs).type hj)
    intro h hh m s s' hs
    cases hh
    run_set hs
  · refine hr.single ho rfl ?_ (fun j hj h hh m s s' hs => (Taf.effect hh hs).modifier hj)
    intro h hh m s s' hs
    cases hh
    run_set hs
  · refine hr.single ho rfl ?_ (fun j hj h hh m s s' hs => (Taf.effect hh hs).station hj)
    intro h hh m s s' hs
    cases hh
    run_set hs
  · refine hr.single ho rfl ?_ (fun j hj h hh m s s' hs => (Taf.effect hh hs).time hj)
    intro h hh m s s' hs
    cases hh
    run_set hs
  · refine hr.single ho rfl ?_ (fun j hj h hh m s s' hs => (Taf.effect hh hs).missing hj)
    intro h hh m s s' hs
    cases hh
    run_set hs
  · refine hr.single' (k := fun r => r.time) (f := fun t m => Valid.fromTaf (some m) t.time) ho rfl
      (fun j hj h hh m s s' hs => (Taf.effect hh hs).time (by omega)) ?_
      (fun j hj h hh m s s' hs => (Taf.effect hh hs).valid hj)
    intro h hh m s s' hs
    cases hh
    run_set hs
  · refine hr.single ho rfl ?_ (fun j hj h hh m s s' hs => (Taf.effect hh hs).cancelled hj)
    intro h hh m s s' hs
    cases hh
    run_set hs
  · refine hr.single ho rfl ?_ (fun j hj h hh m s s' hs => (Taf.effect hh hs).wind hj)
    intro h hh m s s' hs
    cases hh
    run_set hs
  · refine hr.single ho rfl ?_ (fun j hj h hh m s s' hs => (Taf.effect hh hs).prevailing hj)
    intro h hh m s s' hs
    cases hh
    run_set hs
  · have hk := hr.many (get := fun r => r.core.weathers.list) (lo := 9) (hi := 11)
      (f := fun m => .ok (Weather.new m)) (r := MetarRegExp.WEATHER) ?_ ?_
      (fun j hj h hh m s s' hs => congrArg GroupList.list ((Taf.effect hh hs).weathers hj))
    · obtain ⟨xs, e1, e2⟩ := hk
      refine ⟨by rw [e1, hweathers.1]; exact e2, ?_⟩
      rw [← hweathers.2]
      refine hr.keep (get := fun r => r.core.weathers.n) (fun y _ h hh m s s' hs => ?_)
      by_cases hy : y.2 < 9 ∨ 11 < y.2
      · exact congrArg GroupList.n ((Taf.effect hh hs).weathers hy)
      · have : y.2 = 9 ∨ y.2 = 10 ∨ y.2 = 11 := by omega
        rcases this with hy | hy | hy <;> rw [hy] at hh <;> cases hh <;>
        run_cursor hs
    · intro i h h1 h2 hh
      have : i = 9 ∨ i = 10 ∨ i = 11 := by omega
      rcases this with rfl | rfl | rfl <;> cases hh <;> rfl
    · intro i h h1 h2 hh m s s' hs
      have : i = 9 ∨ i = 10 ∨ i = 11 := by omega
      rcases this with rfl | rfl | rfl <;> cases hh <;> run_add hs
  · have hk := hr.many (get := fun r => r.core.clouds.list) (lo := 12) (hi := 15)
      (f := Cloud.fromMetar) (r := MetarRegExp.CLOUD) ?_ ?_
      (fun j hj h hh m s s' hs => congrArg GroupList.list ((Taf.effect hh hs).clouds hj))
    · obtain ⟨xs, e1, e2⟩ := hk
      refine ⟨by rw [e1, hclouds.1]; exact e2, ?_⟩
      rw [← hclouds.2]
      refine hr.keep (get := fun r => r.core.clouds.n) (fun y _ h hh m s s' hs => ?_)
      by_cases hy : y.2 < 12 ∨ 15 < y.2
      · exact congrArg GroupList.n ((Taf.effect hh hs).clouds hy)
      · have : y.2 = 12 ∨ y.2 = 13 ∨ y.2 = 14 ∨ y.2 = 15 := by omega
        rcases this with hy | hy | hy | hy <;> rw [hy] at hh <;> cases hh <;>
        run_cursor hs
    · intro i h h1 h2 hh
      have : i = 12 ∨ i = 13 ∨ i = 14 ∨ i = 15 := by omega
      rcases this with rfl | rfl | rfl | rfl <;> cases hh <;> rfl
    · intro i h h1 h2 hh m s s' hs
      have : i = 12 ∨ i = 13 ∨ i = 14 ∨ i = 15 := by omega
      rcases this with rfl | rfl | rfl | rfl <;> cases hh <;> run_add hs
  · have hk := hr.trace (α := Bool × TafTemperature) (lo := 16) (hi := 19) (k := fun r => r.time)
      (f := fun t m => tafTagged t.time m) (r := TafRegExp.TEMPERATURE) (xs0 := [])
      (P := fun ts r => r.maxTemperatures.list = (ts.filter (·.1)).map (·.2) ∧
        r.minTemperatures.list = (ts.filter (!·.1)).map (·.2)) ho ?_
      (fun j hj h hh m s s' hs => (Taf.effect hh hs).time (by omega)) ?_ ?_ ⟨hmax, hmin⟩
    · simpa using hk
    · intro i h h1 h2 hh
      have : i = 16 ∨ i = 17 ∨ i = 18 ∨ i = 19 := by omega
      rcases this with rfl | rfl | rfl | rfl <;> cases hh <;> rfl
    · intro i h h1 h2 hh m s s' xs hs hp
      have : i = 16 ∨ i = 17 ∨ i = 18 ∨ i = 19 := by omega
      have hs : Taf.handleTemperature m s = .ok s' := by
        rcases this with rfl | rfl | rfl | rfl <;> cases hh <;> exact hs
      unfold Taf.handleTemperature at hs
      simp only [bind_ok] at hs
      obtain ⟨t, e1, e2⟩ := hs
      refine ⟨(decide (m.group .type = some py!"X"), t), by simp [tafTagged, e1, Except.map], ?_⟩
      split at e2
      · next hx =>
        simp only [bind_ok, pure_ok] at e2
        obtain ⟨l, e3, rfl⟩ := e2
        have e3 := GroupList.add_ok e3
        subst e3
        simp [Taf.concat, hx, hp]
      · next hx =>
        simp only [bind_ok, pure_ok] at e2
        obtain ⟨l, e3, rfl⟩ := e2
        have e3 := GroupList.add_ok e3
        subst e3
        simp [Taf.concat, hx, hp]
    · intro j h hj hh m s s' xs hs hp
      rw [(Taf.effect hh hs).maxTemperatures hj, (Taf.effect hh hs).minTemperatures hj]
      exact hp

end Verif
