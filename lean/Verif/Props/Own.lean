import Verif.Lemmas.Own
import Verif.Props.Exceptions

/-
C99: every attribute depends on its own groups only.
-/

namespace Verif.Props
open Spec

/-- C99, METAR. Of two reports, from any texts, with any databases, clocks and options, the attributes whose
groups are the same are the same. -/
theorem C99_metar (db db' : Database) (clock clock' : Clock) (code code' : PyStr) (a a' : Args) (r r' : Metar)
    (h : Metar.new db clock code a = .ok r) (h' : Metar.new db' clock' code' a' = .ok r')
    (c c' : List (PyStr × Nat))
    (hc : Decodes (Metar.handlers db (clock 2) a) (metarGroups r.body) c)
    (hc' : Decodes (Metar.handlers db' (clock' 2) a') (metarGroups r'.body) c') : MetarOwn c c' r r' := by
  obtain ⟨t, -, ho, e, -⟩ := Metar.new_decodes h hc
  obtain ⟨t', -, -, e', -⟩ := Metar.new_decodes h' hc'
  exact {
    type := FromGroup.same ho e.type e'.type
    modifier := FromGroup.same ho e.modifier e'.modifier
    wind := FromGroup.same ho e.wind e'.wind
    windVariation := FromGroup.same ho e.windVariation e'.windVariation
    prevailing := FromGroup.same ho e.prevailing e'.prevailing
    minimum := FromGroup.same ho e.minimum e'.minimum
    ranges := FromGroups.same e.ranges.1 e'.ranges.1
    weathers := FromGroups.same e.weathers.1 e'.weathers.1
    clouds := FromGroups.same e.clouds.1 e'.clouds.1
    temperatures := FromGroup.same ho e.temperatures e'.temperatures
    pressure := FromLast.same e.pressure e'.pressure
    recent := FromGroup.same ho e.recent e'.recent
    windshears := FromGroups.same e.windshears.1 e'.windshears.1
    sea := FromGroup.same ho e.sea e'.sea
    runwayState := FromGroup.same ho e.runwayState e'.runwayState }

/-- C99, METAR. The station needs the same tables, the time the same clock, year and month. -/
theorem C99_metar_station (db db' : Database) (clock clock' : Clock) (code code' : PyStr) (a a' : Args)
    (r r' : Metar)
    (h : Metar.new db clock code a = .ok r) (h' : Metar.new db' clock' code' a' = .ok r')
    (c c' : List (PyStr × Nat))
    (hc : Decodes (Metar.handlers db (clock 2) a) (metarGroups r.body) c)
    (hc' : Decodes (Metar.handlers db' (clock' 2) a') (metarGroups r'.body) c') :
    (db = db' → SameAt c c' 1 1 → r.station = r'.station) ∧
    (clock = clock' → a.year = a'.year → a.month = a'.month → SameAt c c' 2 2 → r.time = r'.time) := by
  obtain ⟨t, e0, ho, e, -⟩ := Metar.new_decodes h hc
  obtain ⟨t', e0', -, e', -⟩ := Metar.new_decodes h' hc'
  refine ⟨?_, ?_⟩
  · rintro rfl
    exact FromGroup.same ho e.station e'.station
  · rintro rfl h1 h2
    have h3 := e'.time
    rw [← h1, ← h2] at h3 e0'
    rw [e0, Except.ok.injEq] at e0'
    subst e0'
    exact FromGroup.same ho e.time h3

/-- C99, METAR. Flight rules depend on visibility and clouds, and `should_be_cavok` on the weather besides. -/
theorem C99_metar_derived (db db' : Database) (clock clock' : Clock) (code code' : PyStr) (a a' : Args)
    (r r' : Metar)
    (h : Metar.new db clock code a = .ok r) (h' : Metar.new db' clock' code' a' = .ok r')
    (c c' : List (PyStr × Nat))
    (hc : Decodes (Metar.handlers db (clock 2) a) (metarGroups r.body) c)
    (hc' : Decodes (Metar.handlers db' (clock' 2) a') (metarGroups r'.body) c')
    (h1 : SameAt c c' 6 6) (h2 : SameAt c c' 14 17) :
    r.core.flightRules = r'.core.flightRules ∧
    ∀ same, SameAt c c' 11 13 → (r.core.shouldBeCavok same).1 = (r'.core.shouldBeCavok same).1 := by
  have ho := C99_metar db db' clock clock' code code' a a' r r' h h' c c' hc hc'
  obtain ⟨t, -, -, e, -⟩ := Metar.new_decodes h hc
  obtain ⟨t', -, -, e', -⟩ := Metar.new_decodes h' hc'
  have hp := ho.prevailing h1
  have hl := ho.clouds h2
  refine ⟨by unfold Core.flightRules; rw [hp, hl], ?_⟩
  intro same h3
  have hw := ho.weathers h3
  have hn : r.core.clouds.n = r'.core.clouds.n := e.clouds.2.trans e'.clouds.2.symm
  have hgo := cavokGo_same same (r.core.clouds.list.length + 1) _ _ hl hn
  unfold Core.shouldBeCavok
  rw [← hw, ← hp, ← hl]
  repeat' split
  all_goals first | rfl | exact congrArg Except.ok hgo | simp_all

/-- C99, TAF. -/
theorem C99_taf (db db' : Database) (clock clock' : Clock) (code code' : PyStr) (a a' : Args) (r r' : Taf)
    (h : Taf.new db clock code a = .ok r) (h' : Taf.new db' clock' code' a' = .ok r')
    (c c' : List (PyStr × Nat))
    (hc : Decodes (Taf.handlers db (clock 1) a) (bodyGroups r.body) c)
    (hc' : Decodes (Taf.handlers db' (clock' 1) a') (bodyGroups r'.body) c') : TafOwn c c' r r' := by
  obtain ⟨t, v, -, -, ho, e, -⟩ := Taf.new_decodes h hc
  obtain ⟨t', v', -, -, -, e', -⟩ := Taf.new_decodes h' hc'
  exact {
    type := FromGroup.same ho e.type e'.type
    modifier := FromGroup.same ho e.modifier e'.modifier
    missing := FromGroup.same ho e.missing e'.missing
    cancelled := FromGroup.same ho e.cancelled e'.cancelled
    wind := FromGroup.same ho e.wind e'.wind
    prevailing := FromGroup.same ho e.prevailing e'.prevailing
    weathers := FromGroups.same e.weathers.1 e'.weathers.1
    clouds := FromGroups.same e.clouds.1 e'.clouds.1
    temperatures := by
      intro hs ht
      obtain ⟨ts, e1, e2, e3⟩ := e.temperatures
      obtain ⟨ts', e1', e2', e3'⟩ := e'.temperatures
      rw [← ht] at e1'
      obtain rfl := FromGroups.same e1 e1' hs
      exact ⟨e2.trans e2'.symm, e3.trans e3'.symm⟩ }

/-- C99, TAF. Station, time and valid period. -/
theorem C99_taf_station (db db' : Database) (clock clock' : Clock) (code code' : PyStr) (a a' : Args)
    (r r' : Taf)
    (h : Taf.new db clock code a = .ok r) (h' : Taf.new db' clock' code' a' = .ok r')
    (c c' : List (PyStr × Nat))
    (hc : Decodes (Taf.handlers db (clock 1) a) (bodyGroups r.body) c)
    (hc' : Decodes (Taf.handlers db' (clock' 1) a') (bodyGroups r'.body) c') :
    (db = db' → SameAt c c' 2 2 → r.station = r'.station) ∧
    (clock = clock' → a.year = a'.year → a.month = a'.month → SameAt c c' 3 3 →
      r.time = r'.time ∧ (SameAt c c' 5 5 → r.valid = r'.valid)) := by
  obtain ⟨t, v, e0, ev, ho, e, -⟩ := Taf.new_decodes h hc
  obtain ⟨t', v', e0', ev', -, e', -⟩ := Taf.new_decodes h' hc'
  refine ⟨?_, ?_⟩
  · rintro rfl
    exact FromGroup.same ho e.station e'.station
  · rintro rfl h1 h2 h4
    have h3 := e'.time
    rw [e0, Except.ok.injEq] at e0'
    subst e0'
    rw [ev, Except.ok.injEq] at ev'
    subst ev'
    rw [← h1, ← h2] at h3
    have ht : r.time = r'.time := FromGroup.same ho e.time h3 h4
    refine ⟨ht, ?_⟩
    have h5 := e'.valid
    rw [← ht] at h5
    exact FromGroup.same ho e.valid h5

/-- C99, trends of METARs. The indicator needs the time of the report as well. -/
theorem C99_trend (db db' : Database) (clock clock' : Clock) (code code' : PyStr) (a a' : Args) (r r' : Metar)
    (h : Metar.new db clock code a = .ok r) (h' : Metar.new db' clock' code' a' = .ok r')
    (p p' : ChangePeriod) (hp : p ∈ r.weatherTrends.list) (hp' : p' ∈ r'.weatherTrends.list)
    (text text' : PyStr) (ht : p.code = some text) (ht' : p'.code = some text') (c c' : List (PyStr × Nat))
    (hc : Decodes ChangePeriod.handlers (bodyGroups text) c)
    (hc' : Decodes ChangePeriod.handlers (bodyGroups text') c') :
    ForecastOwn 3 c c' p.core p'.core ∧
    (r.time.time = r'.time.time → (∀ i ≤ 2, SameAt c c' i i) → p.indicator = p'.indicator) := by
  obtain ⟨ind, p1, i1, ho, hr, hpe, e, htm, -⟩ := Metar.trend_decodes h hp ht hc
  obtain ⟨ind', p1', i1', ho', hr', hpe', e', htm', -⟩ := Metar.trend_decodes h' hp' ht' hc'
  refine ⟨⟨FromGroup.same ho e.wind e'.wind, FromGroup.same ho e.prevailing e'.prevailing,
    FromGroups.same e.weathers.1 e'.weathers.1, FromGroups.same e.clouds.1 e'.clouds.1⟩, ?_⟩
  intro htime hs
  rw [← htime] at i1' hr'
  rw [i1, Except.ok.injEq] at i1'
  subst i1'
  have := runs_part (π := fun p : ChangePeriod => (p.indicator, p.time)) (k := 2) ?_ ?_ ho ho' hr hr' hs rfl
  · rw [hpe, hpe']
    exact congrArg Prod.fst this
  · intro i hd hh hi m s1 s2 t1 t2 hπ h1 h2
    simp only [Prod.mk.injEq] at hπ
    have : i = 0 ∨ i = 1 ∨ i = 2 := by omega
    rcases this with rfl | rfl | rfl <;> cases hh
    · simp only [ChangePeriod.handleTrendIndicator, bind_ok, pure_ok] at h1 h2
      obtain ⟨x, hx, rfl⟩ := h1
      obtain ⟨y, hy, rfl⟩ := h2
      rw [hπ.2, hy, Except.ok.injEq] at hx
      simp [hx, hπ.2]
    all_goals
      simp only [ChangePeriod.handleTimePeriod, bind_ok, pure_ok] at h1 h2
      obtain ⟨x, hx, rfl⟩ := h1
      obtain ⟨y, hy, rfl⟩ := h2
      rw [hπ.1, hy, Except.ok.injEq] at hx
      simp [hx, hπ.2]
  · intro i hd hh hi m s t hst
    have := ChangePeriod.effect hh hst
    simp only [Prod.mk.injEq]
    exact ⟨this.indicator (by omega), this.time⟩

/-- C99, changes of TAFs. The indicator needs the valid period of the report as well; the end of an `FM` period
depends on the next change. -/
theorem C99_change (db db' : Database) (clock clock' : Clock) (code code' : PyStr) (a a' : Args) (r r' : Taf)
    (h : Taf.new db clock code a = .ok r) (h' : Taf.new db' clock' code' a' = .ok r')
    (x x' : ChangeForecasted) (hx : x ∈ r.changes.list) (hx' : x' ∈ r'.changes.list)
    (c c' : List (PyStr × Nat))
    (hc : Decodes ChangeForecasted.handlers (changeGroups x.code) c)
    (hc' : Decodes ChangeForecasted.handlers (changeGroups x'.code) c') :
    ForecastOwn 2 c c' x.core x'.core ∧
    (r.valid = r'.valid → (∀ i ≤ 1, SameAt c c' i i) →
      x.indicator.code = x'.indicator.code ∧ x.indicator.valid.from_ = x'.indicator.valid.from_ ∧
      ((∀ t, x.indicator.code = some t → startsWith t py!"FM" = false) → x.indicator = x'.indicator)) := by
  obtain ⟨p1, ho, hr, ⟨j, s, hxe, q1, q2, q3⟩, e, -⟩ := Taf.change_decodes h hx hc
  obtain ⟨p1', ho', hr', ⟨j', s', hxe', q1', q2', q3'⟩, e', -⟩ := Taf.change_decodes h' hx' hc'
  refine ⟨⟨FromGroup.same ho e.wind e'.wind, FromGroup.same ho e.prevailing e'.prevailing,
    FromGroups.same e.weathers.1 e'.weathers.1, FromGroups.same e.clouds.1 e'.clouds.1⟩, ?_⟩
  intro hv hs
  rw [← hv] at hr'
  have hj : x.indicator = j := by rw [hxe]
  have hj' : x'.indicator = j' := by rw [hxe']
  have := runs_part (π := fun p : ChangeForecasted => (p.indicator, p.valid)) (k := 1) ?_ ?_ ho ho' hr hr' hs rfl
  · have hi : p1.indicator = p1'.indicator := congrArg Prod.fst this
    simp only at q1 q2 q3 q1' q2' q3'
    rw [hj, hj']
    refine ⟨by rw [q1, q1', hi], by rw [q2, q2', hi], ?_⟩
    intro hn
    have hn1 : p1.indicator.NotFm := fun s hs => hn s (by rw [q1]; exact hs)
    rw [q3 hn1, q3' (hi ▸ hn1), hi]
  · intro i hd hh hi m s1 s2 t1 t2 hπ h1 h2
    simp only [Prod.mk.injEq] at hπ
    have : i = 0 ∨ i = 1 := by omega
    rcases this with rfl | rfl <;> cases hh
    · simp only [ChangeForecasted.handleIndicator, bind_ok, pure_ok] at h1 h2
      obtain ⟨x, hx, rfl⟩ := h1
      obtain ⟨y, hy, rfl⟩ := h2
      rw [hπ.2, hy, Except.ok.injEq] at hx
      simp [hx, hπ.2]
    · simp only [ChangeForecasted.handleValid, bind_ok, pure_ok] at h1 h2
      obtain ⟨x, hx, rfl⟩ := h1
      obtain ⟨y, hy, rfl⟩ := h2
      rw [hπ.1, hπ.2, hy, Except.ok.injEq] at hx
      simp [hx, hπ.2]
  · intro i hd hh hi m s t hst
    have := ChangeForecasted.effect hh hst
    simp only [Prod.mk.injEq]
    exact ⟨this.indicator hi, this.valid⟩

/-! ### Instances -/

/-- The groups decoded in the body of a METAR. -/
def decodedOf (db : Database) (clock : Clock) (a : Args) (r : Metar) : List (PyStr × Nat) :=
  consumed (metarGroups r.body) (assign (Metar.handlers db (clock 2) a) 0 (metarGroups r.body))

/-- Two METARs that have nothing in common but wind and clouds, with another clock and year. -/
example : (match Metar.new sampleDb sampleClock py!"METAR SKBO 151200Z 09012KT 9999 BKN015 12/10 Q1013" {},
      Metar.new sampleDb (fun _ => ⟨2001, 2⟩) py!"SPECI COR 09012KT 080V120 2000 RA BKN015 M01/M02"
        { year := some 1999, month := some 12 } with
    | .ok r, .ok r' =>
      let c := decodedOf sampleDb sampleClock {} r
      let c' := decodedOf sampleDb sampleClock {} r'
      decide (taken c 4 4 = taken c' 4 4 ∧ taken c 14 17 = taken c' 14 17 ∧ taken c 4 4 = [py!"09012KT"] ∧
        r.core.wind = r'.core.wind ∧ r.core.clouds.list = r'.core.clouds.list ∧
        r.core.prevailing ≠ r'.core.prevailing ∧ r.temperatures ≠ r'.temperatures ∧ r.time ≠ r'.time)
    | _, _ => false) = true := by decide +kernel

/-- The same temperature group in TAFs of different days: the time is needed. -/
example : (match Taf.new sampleDb sampleClock py!"TAF SKBO 151200Z 1512/1612 TX10/1518Z" {},
      Taf.new sampleDb sampleClock py!"TAF SKBO 161200Z 1612/1712 TX10/1518Z" {} with
    | .ok r, .ok r' => decide (r.maxTemperatures.list ≠ r'.maxTemperatures.list)
    | _, _ => false) = true := by decide +kernel

end Verif.Props
