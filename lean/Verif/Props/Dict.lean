import Verif.Lemmas.Dict
import Verif.Lemmas.Decoded
import Verif.Props.Time

/-
C60: the dictionaries of reports, `as_dict()`; C41 for the lists of a report.
-/

namespace Verif.Props
open Spec

/-! ### The lists of a report keep within their capacity -/

theorem add_fits {α : Type} {g g' : GroupList α} {x : α} (h : g.add x = .ok g') :
    g'.list.length ≤ g'.max ∧ g'.max = g.max := by
  unfold GroupList.add at h
  split at h
  · cases h
  · next hl =>
    cases h
    simp
    omega

theorem addAll_max {α : Type} {g g' : GroupList α} {xs : List α} (h : addAll g xs = .ok g') :
    g'.max = g.max := by
  induction xs generalizing g with
  | nil => cases h; rfl
  | cons x xs ih =>
    unfold addAll at h
    split at h
    · cases h
    · next g1 h1 => rw [ih h, (add_fits h1).2]

theorem addChange_fits {g g' : GroupList ChangeForecasted} {x : ChangeForecasted}
    (h : addChange g x = .ok g') : g'.list.length ≤ g'.max ∧ g'.max = g.max := by
  unfold addChange at h
  split at h
  · exact add_fits h
  · split at h
    · split at h
      · cases h
      · split at h
        · cases h
        · next g1 h1 =>
          obtain ⟨a, b⟩ := add_fits h
          have := addAll_max h1
          exact ⟨a, b.trans this⟩
    · exact add_fits h

theorem addChange_ne {g g' : GroupList ChangeForecasted} {x : ChangeForecasted}
    (h : addChange g x = .ok g') : g'.list ≠ [] := by
  have key : ∀ {g g' : GroupList ChangeForecasted}, g.add x = .ok g' → g'.list ≠ [] := by
    intro g g' h
    rw [GroupList.add_ok h]
    simp
  unfold addChange at h
  split at h
  · exact key h
  · split at h
    · split at h
      · cases h
      · split at h
        · cases h
        · exact key h
    · exact key h

theorem trendsGo_fits {ts : List PyStr} {r r' : Metar} (h : Metar.trendsGo ts r = .ok r')
    (h0 : r.weatherTrends.list.length ≤ r.weatherTrends.max) :
    r'.weatherTrends.list.length ≤ r'.weatherTrends.max ∧
      r'.weatherTrends.max = r.weatherTrends.max := by
  induction ts generalizing r with
  | nil => cases h; exact ⟨h0, rfl⟩
  | cons t ts ih =>
    unfold Metar.trendsGo at h
    split at h
    · simp only [bind_ok, Metar.handleWeatherTrend, pure_ok] at h
      obtain ⟨r1, ⟨p, h1, l, h2, rfl⟩, h3⟩ := h
      obtain ⟨a, b⟩ := add_fits h2
      obtain ⟨c, d⟩ := ih h3 a
      exact ⟨c, d.trans b⟩
    · exact ih h h0

theorem changesGo_fits {ts : List PyStr} {r r' : Taf} (h : Taf.changesGo ts r = .ok r')
    (h0 : r.changes.list.length ≤ r.changes.max) :
    r'.changes.list.length ≤ r'.changes.max ∧ r'.changes.max = r.changes.max := by
  induction ts generalizing r with
  | nil => cases h; exact ⟨h0, rfl⟩
  | cons t ts ih =>
    unfold Taf.changesGo at h
    split at h
    · simp only [bind_ok, Taf.handleChange, pure_ok] at h
      obtain ⟨r1, ⟨p, h1, l, h2, rfl⟩, h3⟩ := h
      obtain ⟨a, b⟩ := addChange_fits h2
      obtain ⟨c, d⟩ := ih h3 (by
        show (l.list.dropLast ++ [_]).length ≤ l.max
        simp only [List.length_append, List.length_dropLast, List.length_cons, List.length_nil]
        have := addChange_ne h2
        have : l.list.length ≠ 0 := by simpa using this
        omega)
      exact ⟨c, d.trans b⟩
    · exact ih h h0

/-- At most one group is taken at each position. -/
theorem ordered_length {c : List (PyStr × Nat)} {lo hi : Nat} (ho : Ordered c)
    (h : ∀ x ∈ c, lo ≤ x.2 ∧ x.2 ≤ hi) : c.length ≤ hi + 1 - lo := by
  induction c generalizing lo with
  | nil => simp
  | cons x c ih =>
    have h1 := List.pairwise_cons.1 ho
    have h2 := h x (by simp)
    have := ih (lo := x.2 + 1) h1.2 fun y hy =>
      ⟨h1.1 y hy, (h y (by simp [hy])).2⟩
    simp only [List.length_cons]
    omega

theorem taken_length {c : List (PyStr × Nat)} (lo hi : Nat) (ho : Ordered c) :
    (taken c lo hi).length ≤ hi + 1 - lo := by
  unfold taken
  rw [List.length_map]
  refine ordered_length (List.Pairwise.filter _ ho) ?_
  intro x hx
  simpa using (List.mem_filter.1 hx).2

theorem fromGroups_length {α : Type} {c : List (PyStr × Nat)} {lo hi : Nat} {re : RE}
    {f : Match → Except Exc α} {xs : List α} (h : FromGroups c lo hi re f xs) (ho : Ordered c) :
    xs.length ≤ hi + 1 - lo := by
  have := taken_length lo hi ho
  rw [Each.length h] at this
  exact this

/-- **C41**, the lists of a METAR: each keeps within the number of entries the source gives it
(metar.py 66-101), which is below the ten labels there are. -/
theorem C41_metar_lists (db : Database) (clock : Clock) (code : PyStr) (a : Args) (r : Metar)
    (h : Metar.new db clock code a = .ok r) :
    r.runwayRanges.list.length ≤ 3 ∧ r.core.weathers.list.length ≤ 3 ∧
    r.core.clouds.list.length ≤ 4 ∧ r.windshears.list.length ≤ 3 ∧
    r.weatherTrends.list.length ≤ 2 := by
  obtain ⟨t0, time, asg, r1, -, -, -, -, -, ho, hR, -⟩ := Metar.new_reading h
  obtain ⟨t0', time', r1', un, r2, -, -, -, -, hf, h3, rfl, -⟩ := Metar.new_ok h
  refine ⟨fromGroups_length hR.ranges.1 ho, fromGroups_length hR.weathers.1 ho,
    fromGroups_length hR.clouds.1 ho, fromGroups_length hR.windshears.1 ho, ?_⟩
  have e : r1'.weatherTrends = ⟨0, 2, []⟩ := hf.trends
  obtain ⟨a1, a2⟩ := trendsGo_fits h3 (by simp [e])
  have e2 : r2.finish.weatherTrends.list = r2.weatherTrends.list := (iterGo_list _ _).1
  rw [e2]
  rw [a2] at a1
  simpa [e] using a1

/-- The two lists of temperatures of a TAF hold at most two entries each. -/
def TempFit (r : Taf) : Prop :=
  (r.maxTemperatures.list.length ≤ 2 ∧ r.maxTemperatures.max = 2) ∧
  (r.minTemperatures.list.length ≤ 2 ∧ r.minTemperatures.max = 2)

theorem tempFit_handler {db : Database} {now : Now} {a : Args} {h : Handler Taf}
    (hh : h ∈ Taf.handlers db now a) {m : Match} {r r' : Taf} (hr : h.run m r = .ok r')
    (hp : TempFit r) : TempFit r' := by
  obtain ⟨j, hj⟩ := List.mem_iff_getElem?.1 hh
  by_cases hb : j < 16 ∨ 19 < j
  · have he := Taf.effect hj hr
    unfold TempFit
    rw [he.maxTemperatures hb, he.minTemperatures hb]
    exact hp
  · have hrun : h.run = Taf.handleTemperature := by
      have : j = 16 ∨ j = 17 ∨ j = 18 ∨ j = 19 := by omega
      rcases this with rfl | rfl | rfl | rfl <;> cases hj <;> rfl
    rw [hrun] at hr
    unfold Taf.handleTemperature at hr
    simp only [bind_ok] at hr
    obtain ⟨t, -, hr⟩ := hr
    split at hr <;> simp only [bind_ok, pure_ok] at hr <;> obtain ⟨l, h1, rfl⟩ := hr
    · obtain ⟨b1, b2⟩ := add_fits h1
      exact ⟨⟨by rw [b2, hp.1.2] at b1; exact b1, b2.trans hp.1.2⟩, hp.2⟩
    · obtain ⟨b1, b2⟩ := add_fits h1
      exact ⟨hp.1, ⟨by rw [b2, hp.2.2] at b1; exact b1, b2.trans hp.2.2⟩⟩

theorem tempFit_changes {ts : List PyStr} {r r' : Taf} (h : Taf.changesGo ts r = .ok r')
    (hp : TempFit r) : TempFit r' := by
  induction ts generalizing r with
  | nil => cases h; exact hp
  | cons t ts ih =>
    unfold Taf.changesGo at h
    split at h
    · simp only [bind_ok, Taf.handleChange, pure_ok] at h
      obtain ⟨r1, ⟨p, h1, l, h2, rfl⟩, h3⟩ := h
      exact ih h3 hp
    · exact ih h hp

/-- **C41**, the lists of a TAF (taf.py 40-58). -/
theorem C41_taf_lists (db : Database) (clock : Clock) (code : PyStr) (a : Args) (r : Taf)
    (h : Taf.new db clock code a = .ok r) :
    r.core.weathers.list.length ≤ 3 ∧ r.core.clouds.list.length ≤ 4 ∧
    r.maxTemperatures.list.length ≤ 2 ∧ r.minTemperatures.list.length ≤ 2 ∧
    r.changes.list.length ≤ 8 := by
  obtain ⟨time, v, asg, r1, -, -, -, -, -, ho, hR, -⟩ := Taf.new_reading h
  obtain ⟨time', v', r1', un, r2, -, -, -, h2, hf, h3, rfl, -⟩ := Taf.new_ok h
  have hfit : TempFit r1' := parseSection_invariant (P := TempFit)
    (fun h hh g m s s' _ hp hr => tempFit_handler hh hr hp)
    ⟨⟨by simp [Taf.start, GroupList.new], rfl⟩, ⟨by simp [Taf.start, GroupList.new], rfl⟩⟩ h2
  have hfit2 : TempFit r2 := tempFit_changes h3 hfit
  refine ⟨fromGroups_length hR.weathers.1 ho, fromGroups_length hR.clouds.1 ho, hfit2.1.1,
    hfit2.2.1, ?_⟩
  have e : r1'.changes = ⟨0, 8, []⟩ := hf.changes
  obtain ⟨a1, a2⟩ := changesGo_fits h3 (by simp [e])
  have e2 : r2.finish.changes.list = r2.changes.list := (iterGo_list _ _).1
  rw [e2]
  rw [a2] at a1
  simpa [e] using a1

/-! ### The dictionaries -/

/-- The string or the float at a place, for the examples. -/
def lookText (d : Except Exc PyVal) (path : List Key) : Option PyStr :=
  match d with
  | .error _ => none
  | .ok v => match (leaves 5 v).find? fun e => e.1 = path with
    | some (_, .str s) => some s
    | some (_, .float x) => some (fmt1 x)
    | some (_, .none) => some py!"None"
    | _ => none

/-- The dictionary of a METAR in any state of its iterators. -/
theorem metar_dict_now (db : Database) (r : Metar) (l1 : r.runwayRanges.list.length ≤ 10)
    (l2 : r.core.weathers.list.length ≤ 10) (l3 : r.core.clouds.list.length ≤ 10)
    (l4 : r.windshears.list.length ≤ 10) (l5 : r.weatherTrends.list.length ≤ 10) :
    ∃ d, r.dict db = .ok d ∧ ∀ n, leaves (n + 5) d = metarTableWith forecastTableNow db r := by
  unfold Metar.dict
  rw [GroupList.asDict_eq _ _ (by omega), GroupList.asDict_eq _ _ (by omega),
    GroupList.asDict_eq _ _ (by omega), GroupList.asDict_eq _ _ (by omega),
    GroupList.asDict_eq _ _ (by omega)]
  refine ⟨_, rfl, fun n => ?_⟩
  have e1 := leaves_labelled (n + 3) RunwayRange.dict rangeTable r.runwayRanges.list
    (fun x _ => leaves_range (n + 1) x)
  have e2 := leaves_labelled (n + 3) Weather.dict weatherTable r.core.weathers.list
    (fun x _ => leaves_weather (n + 2) x)
  have e3 := leaves_labelled (n + 3) Cloud.dict cloudTable r.core.clouds.list
    (fun x _ => leaves_cloud (n + 2) x)
  have e4 := leaves_labelled (n + 3) Windshear.dict windshearTable r.windshears.list
    (fun x _ => leaves_windshear (n + 2) x)
  have e5 := leaves_labelled (n + 3) (fun p : ChangePeriod => p.dict.1)
    (fun p : ChangePeriod => forecastTableNow p.code p.core) r.weatherTrends.list
    (fun x _ => leaves_forecast_now n x.code x.core)
  leaves_of [metarTableWith, reportTable, e1, e2, e3, e4, e5, leaves_strings, leaves_type,
    leaves_station, leaves_time, leaves_modifier, leaves_wind, leaves_variation, leaves_prevailing,
    leaves_minimum, leaves_temperatures, leaves_pressure, leaves_recent, leaves_sea,
    leaves_runwayState]

theorem forecastTableNow_reset {code : Option PyStr} {c : Core}
    (h : c.weathers.n = 0 ∧ c.clouds.n = 0) : forecastTableNow code c = forecastTable code c := by
  rw [forecastTableNow, h.1, h.2]
  rfl

theorem metarTable_now (db : Database) (r : Metar)
    (h : ∀ p ∈ r.weatherTrends.list, p.core.weathers.n = 0 ∧ p.core.clouds.n = 0) :
    metarTableWith forecastTableNow db r = metarTable db r := by
  unfold metarTable metarTableWith
  rw [labelled_congr (t := fun p : ChangePeriod => forecastTableNow p.code p.core)
    fun p hp => forecastTableNow_reset (h p hp)]

/-- **C60**, METAR: the dictionary of a constructed METAR exists, and its leaves are exactly the
attributes, each under its path. -/
theorem C60_metar_dict (db : Database) (clock : Clock) (code : PyStr) (a : Args) (r : Metar)
    (h : Metar.new db clock code a = .ok r) :
    ∃ d, r.dict db = .ok d ∧ ∀ n, leaves (n + 5) d = metarTable db r := by
  obtain ⟨l1, l2, l3, l4, l5⟩ := C41_metar_lists db clock code a r h
  have hn : ∀ p ∈ r.weatherTrends.list, p.core.weathers.n = 0 ∧ p.core.clouds.n = 0 := by
    obtain ⟨t0, time, asg, r1, -, -, -, -, -, -, -, hE, -⟩ := Metar.new_reading h
    intro p hp
    obtain ⟨t, -, ht⟩ := hE.right p hp
    obtain ⟨ind, asg, p1, -, -, -, -, -, hR, -⟩ := ChangePeriod.new_reading ht
    exact ⟨hR.weathers.2, hR.clouds.2⟩
  rw [← metarTable_now db r hn]
  exact metar_dict_now db r (by omega) (by omega) (by omega) (by omega) (by omega)

example : (metarOk sampleClock
    py!"METAR SBGR 071200Z 27015KT 9999 -RA BKN010 OVC020 Q1013 TEMPO TL1330 3000").map (fun r =>
      [[.name py!"wind", .name py!"speed", .name py!"speed"],
       [.name py!"clouds", .name py!"second", .name py!"cover"],
       [.name py!"weathers", .name py!"first", .name py!"code"],
       [.name py!"pressure", .name py!"code"],
       [.name py!"weather_trends", .name py!"first", .name py!"prevailing_visibility",
        .name py!"visibility", .name py!"distance"],
       [.name py!"sections", .idx 1]].map (lookText (r.dict sampleDb))) =
    some [some py!"15.0", some py!"overcast", some py!"-RA", none, some py!"3000.0",
      some py!"TEMPO TL1330 3000"] := by
  decide +kernel

/-- The dictionary of a TAF in any state of its iterators. -/
theorem taf_dict_now (db : Database) (r : Taf) (l2 : r.core.weathers.list.length ≤ 10)
    (l3 : r.core.clouds.list.length ≤ 10) (l1 : r.maxTemperatures.list.length ≤ 10)
    (l4 : r.minTemperatures.list.length ≤ 10) (l5 : r.changes.list.length ≤ 10) :
    ∃ d, r.dict db = .ok d ∧ ∀ n, leaves (n + 5) d = tafTableWith forecastTableNow db r := by
  unfold Taf.dict
  rw [GroupList.asDict_eq _ _ (by omega), GroupList.asDict_eq _ _ (by omega),
    GroupList.asDict_eq _ _ (by omega), GroupList.asDict_eq _ _ (by omega),
    GroupList.asDict_eq _ _ (by omega)]
  refine ⟨_, rfl, fun n => ?_⟩
  have e2 := leaves_labelled (n + 3) Weather.dict weatherTable r.core.weathers.list
    (fun x _ => leaves_weather (n + 2) x)
  have e3 := leaves_labelled (n + 3) Cloud.dict cloudTable r.core.clouds.list
    (fun x _ => leaves_cloud (n + 2) x)
  have e1 := leaves_labelled (n + 3) TafTemperature.dict tafTemperatureTable r.maxTemperatures.list
    (fun x _ => leaves_tafTemperature (n + 2) x)
  have e4 := leaves_labelled (n + 3) TafTemperature.dict tafTemperatureTable r.minTemperatures.list
    (fun x _ => leaves_tafTemperature (n + 2) x)
  have e5 := leaves_labelled (n + 3) (fun p : ChangeForecasted => p.dict.1)
    (fun p : ChangeForecasted => forecastTableNow (some p.code) p.core) r.changes.list
    (fun x _ => leaves_forecast_now n (some x.code) x.core)
  leaves_of [tafTableWith, reportTable, e1, e2, e3, e4, e5, leaves_strings, leaves_type,
    leaves_station, leaves_time, leaves_modifier, leaves_missing, leaves_valid, leaves_cancelled,
    leaves_wind, leaves_prevailing]

theorem tafTable_now (db : Database) (r : Taf)
    (h : ∀ p ∈ r.changes.list, p.core.weathers.n = 0 ∧ p.core.clouds.n = 0) :
    tafTableWith forecastTableNow db r = tafTable db r := by
  unfold tafTable tafTableWith
  rw [labelled_congr (t := fun p : ChangeForecasted => forecastTableNow (some p.code) p.core)
    fun p hp => forecastTableNow_reset (h p hp)]

/-- **C60**, TAF. -/
theorem C60_taf_dict (db : Database) (clock : Clock) (code : PyStr) (a : Args) (r : Taf)
    (h : Taf.new db clock code a = .ok r) :
    ∃ d, r.dict db = .ok d ∧ ∀ n, leaves (n + 5) d = tafTable db r := by
  obtain ⟨l1, l2, l3, l4, l5⟩ := C41_taf_lists db clock code a r h
  have hn : ∀ p ∈ r.changes.list, p.core.weathers.n = 0 ∧ p.core.clouds.n = 0 := by
    obtain ⟨time, v, asg, r1, -, -, -, -, -, -, -, -, hE, -⟩ := Taf.new_reading h
    intro p hp
    obtain ⟨t, -, p0, ht, i, s, rfl, -⟩ := hE.right p hp
    obtain ⟨asg, p1, -, -, -, -, hR, -⟩ := ChangeForecasted.new_reading ht
    exact ⟨hR.weathers.2, hR.clouds.2⟩
  rw [← tafTable_now db r hn]
  exact taf_dict_now db r (by omega) (by omega) (by omega) (by omega) (by omega)

/-- C60: not every group of a report carries its code in the dictionary. The entry of the pressure
has none (see the example above), and the entry of a TAF temperature has that of its time, which
was never given one; of a change neither the indicator nor its period is found. -/
theorem C60_code_counterexample :
    (tafOk sampleClock
      py!"TAF SBGR 071000Z 0712/0818 27015KT CAVOK TX25/0718Z BECMG 0800/0802 OVC010").map (fun r =>
        ([[.name py!"max_temperatures", .name py!"first", .name py!"temperature"],
          [.name py!"max_temperatures", .name py!"first", .name py!"code"],
          [.name py!"changes_forecasted", .name py!"first", .name py!"clouds", .idx 0,
           .name py!"cover"]].map (lookText (r.dict sampleDb)),
         r.maxTemperatures.list.map TafTemperature.code,
         (forecastTable (r.changes.list.head?.map ChangeForecasted.code)
            (r.changes.list.headD (ChangeForecasted.start [] r.valid)).core).filterMap fun e =>
              if e.1.length = 1 then some e.1 else none)) =
    some ([some py!"25.0", some py!"None", some py!"overcast"], [some py!"TX25/0718Z"],
      [[.name py!"weathers"], [.name py!"flight_rules"], [.name py!"code"]]) := by
  decide +kernel

end Verif.Props
