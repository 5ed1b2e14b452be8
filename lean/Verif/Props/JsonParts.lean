import Verif.Lemmas.JsonParts
import Verif.Props.Json

/-
C86: the JSON text of a part of a report: it is read back as the dictionary of the part, and it is
written, word for word, in the JSON text of the report.
-/

namespace Verif.Props
open Verif Verif.Spec

/-! ### Any value -/

/-- C86: whatever lies inside a value is written inside its text as it is written alone. -/
theorem C86_infix (v w : PyVal) (h : Inside w v) : partJson w <:+: partJson v := inside_infix h

/-- C86: an entry of a dictionary is written behind its key. -/
theorem C86_entry (v w : PyVal) (k : PyStr) (h : entry v k = some w) :
    ∃ a b, partJson v = a ++ (jsonStr k ++ py!": " ++ partJson w) ++ b := by
  cases v with
  | dict d => exact members_mid (entry_mem h)
  | none => cases h
  | bool b => cases h
  | str s => cases h
  | float x => cases h
  | list l => cases h

/-- C86: what lies inside a value of Unicode text and doubles is read back. -/
theorem C86_read (v w : PyVal) (hv : PlainVal v) (h : Inside w v) : readJson (partJson w) = some w :=
  C70_round_trip w (inside_plain h hv)

example : Inside (.float ⟨0, true⟩) sampleVal ∧ partJson (.float ⟨0, true⟩) = py!"-0.0" :=
  ⟨.dict (.head _) (.list (.head _) .here), by decide +kernel⟩

/-! ### The parts of a report -/

/-- The numbers of a wind. -/
def windParts (w : MetarWind) : List PyVal := [w.direction.dict, speedDict w.speed, speedDict w.gust]

/-- The numbers of a visibility. -/
def visParts (v : Visibility) : List PyVal := [v.direction.dict, distanceDict v.vis]

/-- The parts of a forecast. -/
def forecastParts (c : Core) : List PyVal :=
  [c.wind.dict, c.prevailing.dictPrev] ++ windParts c.wind ++ visParts c.prevailing ++
    c.weathers.list.map Weather.dict ++ c.clouds.list.map Cloud.dict

/-- The groups of a METAR under their keys. -/
def metarEntries (db : Database) (r : Metar) : List (PyStr × PyVal) :=
  [(py!"type_", r.type.dict), (py!"station", r.station.dict db), (py!"time", .dict r.time.dict),
   (py!"modifier", .dict r.modifier.dict), (py!"wind", r.core.wind.dict),
   (py!"wind_variation", r.windVariation.dict), (py!"prevailing_visibility", r.core.prevailing.dictPrev),
   (py!"minimum_visibility", .dict r.minimumVisibility.dictMin), (py!"temperatures", r.temperatures.dict),
   (py!"pressure", r.pressure.dict), (py!"recent_weather", r.recentWeather.dict),
   (py!"sea_state", r.seaState.dict), (py!"runway_state", r.runwayState.dict)]

/-- The groups in the lists of a METAR, and the numbers that have a `to_json` of their own. -/
def metarMembers (r : Metar) : List PyVal :=
  windParts r.core.wind ++ visParts r.core.prevailing ++ visParts r.minimumVisibility ++
  [r.windVariation.from_.dict, r.windVariation.to.dict, .dict (temperatureDict r.temperatures.temperature),
   .dict (temperatureDict r.temperatures.dewpoint), .dict (temperatureDict r.seaState.temperature),
   distanceDict r.seaState.height] ++
  r.runwayRanges.list.flatMap (fun x => [x.dict, distanceDict x.low, distanceDict x.high]) ++
  r.core.weathers.list.map Weather.dict ++ r.core.clouds.list.map Cloud.dict ++
  r.windshears.list.map Windshear.dict ++
  r.weatherTrends.list.flatMap (fun p => p.dict.1 :: forecastParts p.core)

/-- The groups of a TAF under their keys. -/
def tafEntries (db : Database) (r : Taf) : List (PyStr × PyVal) :=
  [(py!"type_", r.type.dict), (py!"station", r.station.dict db), (py!"time", .dict r.time.dict),
   (py!"modifier", .dict r.modifier.dict), (py!"missing", r.missing.dict), (py!"valid", r.valid.dict),
   (py!"cancelled", r.cancelled.dict), (py!"wind", r.core.wind.dict),
   (py!"prevailing_visibility", r.core.prevailing.dictPrev)]

/-- The groups in the lists of a TAF, and the numbers that have a `to_json` of their own. -/
def tafMembers (r : Taf) : List PyVal :=
  [.dict r.valid.from_.dict, .dict r.valid.until_.dict] ++
  windParts r.core.wind ++ visParts r.core.prevailing ++
  r.core.weathers.list.map Weather.dict ++ r.core.clouds.list.map Cloud.dict ++
  r.maxTemperatures.list.map TafTemperature.dict ++ r.minTemperatures.list.map TafTemperature.dict ++
  r.changes.list.flatMap (fun p => p.dict.1 :: forecastParts p.core)

/-- The text `t` and the dictionary `d` of a report hold the groups `es` under their keys, the parts
`ws` somewhere, and the lists of groups with the texts `ls`: each is read back alone. -/
structure HoldsParts (t : PyStr) (d : PyVal) (es : List (PyStr × PyVal)) (ws : List PyVal)
    (ls : List (PyStr × Except Exc PyStr)) : Prop where
  groups : ∀ e ∈ es, entry d e.1 = some e.2 ∧ readJson (partJson e.2) = some e.2 ∧
    ∃ a b, t = a ++ (jsonStr e.1 ++ py!": " ++ partJson e.2) ++ b
  members : ∀ w ∈ ws, readJson (partJson w) = some w ∧ partJson w <:+: t
  lists : ∀ l ∈ ls, ∃ u v, l.2 = .ok u ∧ entry d l.1 = some v ∧ readJson u = some v ∧
    ∃ a b, t = a ++ (jsonStr l.1 ++ py!": " ++ u) ++ b

theorem inside_wind {w : MetarWind} : ∀ x ∈ windParts w, Inside x w.dict := by
  intro x hx
  simp only [windParts, List.mem_cons, List.not_mem_nil, or_false] at hx
  rcases hx with rfl | rfl | rfl
  · exact inside_entry py!"direction" rfl
  · exact inside_entry py!"speed" rfl
  · exact inside_entry py!"gust" rfl

theorem inside_min {v : Visibility} : ∀ x ∈ visParts v, Inside x (.dict v.dictMin) := by
  intro x hx
  simp only [visParts, List.mem_cons, List.not_mem_nil, or_false] at hx
  rcases hx with rfl | rfl
  · exact inside_entry py!"direction" rfl
  · exact inside_entry py!"visibility" rfl

theorem inside_prev {v : Visibility} : ∀ x ∈ visParts v, Inside x v.dictPrev := by
  intro x hx
  simp only [visParts, List.mem_cons, List.not_mem_nil, or_false] at hx
  rcases hx with rfl | rfl
  · exact inside_entry py!"direction" rfl
  · exact inside_entry py!"visibility" rfl

theorem inside_forecast {code : Option PyStr} {c : Core} (h : c.weathers.n = 0 ∧ c.clouds.n = 0) :
    ∀ x ∈ forecastParts c, Inside x (forecastDict code c).1 := by
  intro x hx
  have e1 := GroupList.iter_reset c.weathers h.1
  have e2 := GroupList.iter_reset c.clouds h.2
  unfold forecastDict
  rw [e1, e2]
  simp only [forecastParts, List.mem_append, List.mem_cons, List.not_mem_nil, or_false, List.mem_map] at hx
  rcases hx with ((((rfl | rfl) | hx) | hx) | ⟨w, hw, rfl⟩) | ⟨w, hw, rfl⟩
  · exact inside_entry py!"wind" rfl
  · exact inside_entry py!"prevailing_visibility" rfl
  · exact (inside_wind x hx).trans (inside_entry py!"wind" rfl)
  · exact (inside_prev x hx).trans (inside_entry py!"prevailing_visibility" rfl)
  · exact Inside.trans (.list (List.mem_map.2 ⟨w, hw, rfl⟩) .here) (inside_entry py!"weathers" rfl)
  · exact Inside.trans (.list (List.mem_map.2 ⟨w, hw, rfl⟩) .here) (inside_entry py!"clouds" rfl)

theorem holds_parts {t : PyStr} {d : PyVal} {es : List (PyStr × PyVal)} {ws : List PyVal}
    {ls : List (PyStr × Except Exc PyStr)} (hd : PlainVal d) (ht : t = jsonVal d)
    (he : ∀ e ∈ es, entry d e.1 = some e.2) (hw : ∀ w ∈ ws, Inside w d)
    (hl : ∀ l ∈ ls, ∃ v, l.2 = .ok (jsonVal v) ∧ entry d l.1 = some v) : HoldsParts t d es ws ls := by
  subst ht
  refine ⟨fun e h => ⟨he e h, C86_read d _ hd (inside_entry _ (he e h)), C86_entry d _ _ (he e h)⟩,
    fun w h => ⟨C86_read d w hd (hw w h), inside_infix (hw w h)⟩, fun l h => ?_⟩
  obtain ⟨v, h1, h2⟩ := hl l h
  exact ⟨_, v, h1, h2, C86_read d _ hd (inside_entry _ h2), C86_entry d _ _ h2⟩

theorem list_json {α : Type} (g : GroupList α) (f : α → PyVal) (h : g.list.length ≤ 10) :
    g.json (fun x => .ok (f x)) = .ok (jsonVal (.dict ((ordinals.take g.list.length).zip (g.list.map f)))) := by
  unfold GroupList.json
  simp only [GroupList.asDict_eq _ _ h, bind, Except.bind, pure, Except.pure]

/-- The dictionary of a list of groups. -/
def labelledDict {α : Type} (f : α → PyVal) (l : List α) : PyVal :=
  .dict ((ordinals.take l.length).zip (l.map f))

theorem list_json' {α : Type} (g : GroupList α) (f : α → PyVal) (h : g.list.length ≤ 10) :
    g.json (fun x => .ok (f x)) = .ok (jsonVal (labelledDict f g.list)) := list_json g f h

/-- The dictionaries of the lists of a METAR. -/
def metarLists (r : Metar) : List (PyStr × PyVal) :=
  [(py!"runway_ranges", labelledDict RunwayRange.dict r.runwayRanges.list),
   (py!"weathers", labelledDict Weather.dict r.core.weathers.list),
   (py!"clouds", labelledDict Cloud.dict r.core.clouds.list),
   (py!"windshears", labelledDict Windshear.dict r.windshears.list),
   (py!"weather_trends", labelledDict (fun p : ChangePeriod => p.dict.1) r.weatherTrends.list)]

def tafLists (r : Taf) : List (PyStr × PyVal) :=
  [(py!"weathers", labelledDict Weather.dict r.core.weathers.list),
   (py!"clouds", labelledDict Cloud.dict r.core.clouds.list),
   (py!"max_temperatures", labelledDict TafTemperature.dict r.maxTemperatures.list),
   (py!"min_temperatures", labelledDict TafTemperature.dict r.minTemperatures.list),
   (py!"changes_forecasted", labelledDict (fun p : ChangeForecasted => p.dict.1) r.changes.list)]

theorem metar_entries (db : Database) (r : Metar) (l1 : r.runwayRanges.list.length ≤ 10)
    (l2 : r.core.weathers.list.length ≤ 10) (l3 : r.core.clouds.list.length ≤ 10)
    (l4 : r.windshears.list.length ≤ 10) (l5 : r.weatherTrends.list.length ≤ 10) {d : PyVal} (hd : r.dict db = .ok d) :
    ∀ e ∈ metarEntries db r ++ metarLists r, entry d e.1 = some e.2 := by
  unfold Metar.dict at hd
  rw [GroupList.asDict_eq _ _ (by omega), GroupList.asDict_eq _ _ (by omega),
    GroupList.asDict_eq _ _ (by omega), GroupList.asDict_eq _ _ (by omega),
    GroupList.asDict_eq _ _ (by omega)] at hd
  simp only [bind, Except.bind, pure, Except.pure, Except.ok.injEq] at hd
  rw [dupdate_new (by simp only [List.map_cons, List.map_nil]; decide +kernel)] at hd
  subst hd
  intro e he
  refine entry_of_mem ?_ ?_
  · simp only [List.map_append, List.map_cons, List.map_nil]; decide +kernel
  · revert e
    simp only [metarEntries, metarLists, labelledDict, List.cons_append, List.nil_append, List.forall_mem_cons,
      List.not_mem_nil, false_imp_iff, implies_true, and_true]
    simp only [List.mem_cons, true_or, or_true, and_true]

theorem taf_entries (db : Database) (r : Taf) (l2 : r.core.weathers.list.length ≤ 10)
    (l3 : r.core.clouds.list.length ≤ 10) (l1 : r.maxTemperatures.list.length ≤ 10)
    (l4 : r.minTemperatures.list.length ≤ 10) (l5 : r.changes.list.length ≤ 10) {d : PyVal} (hd : r.dict db = .ok d) :
    ∀ e ∈ tafEntries db r ++ tafLists r, entry d e.1 = some e.2 := by
  unfold Taf.dict at hd
  rw [GroupList.asDict_eq _ _ (by omega), GroupList.asDict_eq _ _ (by omega),
    GroupList.asDict_eq _ _ (by omega), GroupList.asDict_eq _ _ (by omega),
    GroupList.asDict_eq _ _ (by omega)] at hd
  simp only [bind, Except.bind, pure, Except.pure, Except.ok.injEq] at hd
  rw [dupdate_new (by simp only [List.map_cons, List.map_nil]; decide +kernel)] at hd
  subst hd
  intro e he
  refine entry_of_mem ?_ ?_
  · simp only [List.map_append, List.map_cons, List.map_nil]; decide +kernel
  · revert e
    simp only [tafEntries, tafLists, labelledDict, List.cons_append, List.nil_append, List.forall_mem_cons,
      List.not_mem_nil, false_imp_iff, implies_true, and_true]
    simp only [List.mem_cons, true_or, or_true, and_true]

/-- C86: the JSON texts of the groups, the numbers and the lists of a METAR made from Unicode text:
each is read back as what it was written from, and the text of the report holds it. -/
theorem C86_metar (db : Database) (clock : Clock) (code : PyStr) (a : Args) (r : Metar)
    (hcode : ∀ c ∈ code, Scalar c) (hdb : ∀ c, InTables db c → Scalar c)
    (h : Metar.new db clock code a = .ok r) :
    ∃ t d, r.json db = .ok t ∧ r.dict db = .ok d ∧ HoldsParts t d (metarEntries db r) (metarMembers r)
      [(py!"runway_ranges", r.runwayRanges.json fun x => .ok x.dict),
       (py!"weathers", r.core.weathers.json fun x => .ok x.dict),
       (py!"clouds", r.core.clouds.json fun x => .ok x.dict),
       (py!"windshears", r.windshears.json fun x => .ok x.dict),
       (py!"weather_trends", r.weatherTrends.json fun x => .ok x.dict.1)] := by
  obtain ⟨t, d, ht, hd, -⟩ := C70_metar db clock code a r hcode hdb h
  refine ⟨t, d, ht, hd, ?_⟩
  have hplain := plain_of_made (made_metar ascii_scalar hdb hcode h hd)
  obtain ⟨l1, l2, l3, l4, l5⟩ := C41_metar_lists db clock code a r h
  have hn : ∀ p ∈ r.weatherTrends.list, p.core.weathers.n = 0 ∧ p.core.clouds.n = 0 := by
    obtain ⟨t0, time, asg, r1, -, -, -, -, -, -, -, hE, -⟩ := Metar.new_reading h
    intro p hp
    obtain ⟨t, -, ht⟩ := hE.right p hp
    obtain ⟨ind, asg, p1, -, -, -, -, -, hR, -⟩ := ChangePeriod.new_reading ht
    exact ⟨hR.weathers.2, hR.clouds.2⟩
  have hent := metar_entries db r (by omega) (by omega) (by omega) (by omega) (by omega) hd
  rw [list_json' _ _ (by omega), list_json' _ _ (by omega), list_json' _ _ (by omega), list_json' _ _ (by omega),
    list_json' _ _ (by omega)]
  unfold Metar.json at ht
  rw [hd] at ht
  cases ht
  refine holds_parts hplain rfl (fun e he => hent e (List.mem_append_left _ he)) ?_ ?_
  · simp only [metarEntries, metarLists, List.cons_append, List.nil_append, List.forall_mem_cons,
      List.not_mem_nil, false_imp_iff, implies_true, and_true] at hent
    obtain ⟨-, -, -, -, wind, var, prev, min, temp, -, -, sea, -, ranges, weathers, clouds, shears, trends⟩ := hent
    intro x hx
    simp only [metarMembers, List.mem_append, List.mem_cons, List.not_mem_nil, or_false, List.mem_map,
      List.mem_flatMap] at hx
    rcases hx with ((((((((hx | hx) | hx) | hx) | hx) | hx) | hx) | hx) | hx)
    · exact (inside_wind x hx).trans (inside_entry _ wind)
    · exact (inside_prev x hx).trans (inside_entry _ prev)
    · exact (inside_min x hx).trans (inside_entry _ min)
    · rcases hx with rfl | rfl | rfl | rfl | rfl | rfl
      · exact Inside.trans (inside_entry py!"from_" rfl) (inside_entry _ var)
      · exact Inside.trans (inside_entry py!"to" rfl) (inside_entry _ var)
      · exact Inside.trans (inside_entry py!"temperature" rfl) (inside_entry _ temp)
      · exact Inside.trans (inside_entry py!"dewpoint" rfl) (inside_entry _ temp)
      · exact Inside.trans (inside_entry py!"temperature" rfl) (inside_entry _ sea)
      · exact Inside.trans (inside_entry py!"height" rfl) (inside_entry _ sea)
    · obtain ⟨y, hy, hx⟩ := hx
      refine Inside.trans ?_ ((inside_labelled (f := RunwayRange.dict) (by omega) hy).trans (inside_entry _ ranges))
      rcases hx with rfl | rfl | rfl
      · exact .here
      · exact inside_entry py!"low_range" rfl
      · exact inside_entry py!"high_range" rfl
    · obtain ⟨y, hy, rfl⟩ := hx
      exact (inside_labelled (f := Weather.dict) (by omega) hy).trans (inside_entry _ weathers)
    · obtain ⟨y, hy, rfl⟩ := hx
      exact (inside_labelled (f := Cloud.dict) (by omega) hy).trans (inside_entry _ clouds)
    · obtain ⟨y, hy, rfl⟩ := hx
      exact (inside_labelled (f := Windshear.dict) (by omega) hy).trans (inside_entry _ shears)
    · obtain ⟨y, hy, hx⟩ := hx
      refine Inside.trans ?_ ((inside_labelled (f := fun p : ChangePeriod => p.dict.1) (by omega) hy).trans
        (inside_entry _ trends))
      rcases hx with rfl | hx
      · exact .here
      · exact inside_forecast (hn y hy) x hx
  · simp only [metarEntries, metarLists, List.cons_append, List.nil_append, List.forall_mem_cons,
      List.not_mem_nil, false_imp_iff, implies_true, and_true] at hent ⊢
    obtain ⟨-, -, -, -, -, -, -, -, -, -, -, -, -, ranges, weathers, clouds, shears, trends⟩ := hent
    exact ⟨⟨_, rfl, ranges⟩, ⟨_, rfl, weathers⟩, ⟨_, rfl, clouds⟩, ⟨_, rfl, shears⟩, ⟨_, rfl, trends⟩⟩

/-- C86: the same for a TAF. -/
theorem C86_taf (db : Database) (clock : Clock) (code : PyStr) (a : Args) (r : Taf)
    (hcode : ∀ c ∈ code, Scalar c) (hdb : ∀ c, InTables db c → Scalar c)
    (h : Taf.new db clock code a = .ok r) :
    ∃ t d, r.json db = .ok t ∧ r.dict db = .ok d ∧ HoldsParts t d (tafEntries db r) (tafMembers r)
      [(py!"weathers", r.core.weathers.json fun x => .ok x.dict),
       (py!"clouds", r.core.clouds.json fun x => .ok x.dict),
       (py!"max_temperatures", r.maxTemperatures.json fun x => .ok x.dict),
       (py!"min_temperatures", r.minTemperatures.json fun x => .ok x.dict),
       (py!"changes_forecasted", r.changes.json fun x => .ok x.dict.1)] := by
  obtain ⟨t, d, ht, hd, -⟩ := C70_taf db clock code a r hcode hdb h
  refine ⟨t, d, ht, hd, ?_⟩
  have hplain := plain_of_made (made_taf ascii_scalar hdb hcode h hd)
  obtain ⟨l1, l2, l3, l4, l5⟩ := C41_taf_lists db clock code a r h
  have hn : ∀ p ∈ r.changes.list, p.core.weathers.n = 0 ∧ p.core.clouds.n = 0 := by
    obtain ⟨time, v, asg, r1, -, -, -, -, -, -, -, -, hE, -⟩ := Taf.new_reading h
    intro p hp
    obtain ⟨t, -, p0, ht, i, s, rfl, -⟩ := hE.right p hp
    obtain ⟨asg, p1, -, -, -, -, hR, -⟩ := ChangeForecasted.new_reading ht
    exact ⟨hR.weathers.2, hR.clouds.2⟩
  have hent := taf_entries db r (by omega) (by omega) (by omega) (by omega) (by omega) hd
  rw [list_json' _ _ (by omega), list_json' _ _ (by omega), list_json' _ _ (by omega), list_json' _ _ (by omega),
    list_json' _ _ (by omega)]
  unfold Taf.json at ht
  rw [hd] at ht
  cases ht
  refine holds_parts hplain rfl (fun e he => hent e (List.mem_append_left _ he)) ?_ ?_
  · simp only [tafEntries, tafLists, List.cons_append, List.nil_append, List.forall_mem_cons,
      List.not_mem_nil, false_imp_iff, implies_true, and_true] at hent
    obtain ⟨-, -, -, -, -, valid, -, wind, prev, weathers, clouds, mx, mn, changes⟩ := hent
    intro x hx
    simp only [tafMembers, List.mem_append, List.mem_cons, List.not_mem_nil, or_false, List.mem_map,
      List.mem_flatMap] at hx
    rcases hx with (((((((hx | hx) | hx) | hx) | hx) | hx) | hx) | hx)
    · rcases hx with rfl | rfl
      · exact Inside.trans (inside_entry py!"from_" rfl) (inside_entry _ valid)
      · exact Inside.trans (inside_entry py!"until" rfl) (inside_entry _ valid)
    · exact (inside_wind x hx).trans (inside_entry _ wind)
    · exact (inside_prev x hx).trans (inside_entry _ prev)
    · obtain ⟨y, hy, rfl⟩ := hx
      exact (inside_labelled (f := Weather.dict) (by omega) hy).trans (inside_entry _ weathers)
    · obtain ⟨y, hy, rfl⟩ := hx
      exact (inside_labelled (f := Cloud.dict) (by omega) hy).trans (inside_entry _ clouds)
    · obtain ⟨y, hy, rfl⟩ := hx
      exact (inside_labelled (f := TafTemperature.dict) (by omega) hy).trans (inside_entry _ mx)
    · obtain ⟨y, hy, rfl⟩ := hx
      exact (inside_labelled (f := TafTemperature.dict) (by omega) hy).trans (inside_entry _ mn)
    · obtain ⟨y, hy, hx⟩ := hx
      refine Inside.trans ?_ ((inside_labelled (f := fun p : ChangeForecasted => p.dict.1) (by omega) hy).trans
        (inside_entry _ changes))
      rcases hx with rfl | hx
      · exact .here
      · exact inside_forecast (hn y hy) x hx
  · simp only [tafEntries, tafLists, List.cons_append, List.nil_append, List.forall_mem_cons,
      List.not_mem_nil, false_imp_iff, implies_true, and_true] at hent ⊢
    obtain ⟨-, -, -, -, -, -, -, -, -, weathers, clouds, mx, mn, changes⟩ := hent
    exact ⟨⟨_, rfl, weathers⟩, ⟨_, rfl, clouds⟩, ⟨_, rfl, mx⟩, ⟨_, rfl, mn⟩, ⟨_, rfl, changes⟩⟩

/-! ### Samples -/

example : (metarOk sampleClock py!"METAR SBGR 071200Z 27015G25KT 9999 -RA BKN010 22/M00 Q1014").map (fun r =>
      (partJson r.core.wind.dict, partJson (.dict (temperatureDict r.temperatures.dewpoint)),
        ((r.core.clouds.json fun x => .ok x.dict).toOption))) =
    some (py!"{\"direction\": {\"cardinal\": \"W\", \"variable\": false, \"units\": \"degrees\", \"direction\": 270.0}, \"speed\": {\"units\": \"knot\", \"speed\": 15.0}, \"gust\": {\"units\": \"knot\", \"speed\": 25.0}, \"code\": \"27015G25KT\"}",
      py!"{\"units\": \"celsius\", \"temperature\": -0.0}",
      some py!"{\"first\": {\"cover\": \"broken\", \"oktas\": \"5-7\", \"height_units\": \"meters\", \"height\": 304.8, \"type\": null, \"code\": \"BKN010\"}}") := by
  decide +kernel

end Verif.Props
