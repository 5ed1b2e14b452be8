import Verif.Props.TafWords
import Verif.Props.RoundRuns

/-
The positions at which the groups of a TAF record and of its changes are taken.
-/

namespace Verif.Props
open Spec MetarRegExp

variable {db : Database} {now : Now} {a : Args}

/-- The groups of the body of a record with their positions. -/
def tafRunsOf (r : TafRecord) : List (Nat × List PyStr) :=
  [(0, [py!"TAF"]), (1, r.modifier.toList), (2, [r.station, timeText r.day r.hour r.minute]),
   (4, if r.missing then [py!"NIL"] else []), (5, r.valid.toList.map ValidGroup.text),
   (6, if r.cancelled then [py!"CNL"] else []), (7, r.conds.wind.toList.map WindGroup.text),
   (8, r.conds.vis.toList.map VisGroup.text), (9, r.conds.weathers.map WeatherGroup.text),
   (12, r.conds.clouds.map Layer.text), (16, r.temps.map TafTempGroup.text)]

def tafPlacesOf (r : TafRecord) : List (PyStr × Nat) := (tafRunsOf r).flatMap fun x => place x.1 x.2

theorem tafPlacesOf_groups (r : TafRecord) : (tafPlacesOf r).map (·.1) = tafGroupsOf r := by
  simp only [tafPlacesOf, tafRunsOf, List.flatMap_cons, List.flatMap_nil, List.map_append, place_map, tafGroupsOf,
    TafRecord.front, condGroups, Conditions.sky, List.append_assoc, List.append_nil, List.cons_append,
    List.nil_append]

/-- The groups of a change with their positions. -/
def changeRunsOf (c : TafChange) : List (Nat × List PyStr) :=
  [(0, [c.kind.group]), (1, c.valid.toList.map ValidGroup.text), (2, c.conds.wind.toList.map WindGroup.text),
   (3, c.conds.vis.toList.map VisGroup.text), (4, c.conds.weathers.map WeatherGroup.text),
   (7, c.conds.clouds.map Layer.text)]

def changePlacesOf (c : TafChange) : List (PyStr × Nat) := (changeRunsOf c).flatMap fun x => place x.1 x.2

theorem changePlacesOf_groups (c : TafChange) : (changePlacesOf c).map (·.1) = changeGroupsOf c := by
  simp only [changePlacesOf, changeRunsOf, List.flatMap_cons, List.flatMap_nil, List.map_append, place_map,
    changeGroupsOf, condGroups, Conditions.sky, List.append_nil, List.cons_append,
    List.nil_append]

theorem temps_len {r : TafRecord} (h : r.WF) : r.temps.length ≤ 4 := by
  have h1 := h.counts
  have : ∀ l : List TafTempGroup, l.length = (l.filter (·.max)).length + (l.filter (!·.max)).length := by
    intro l
    induction l with
    | nil => rfl
    | cons x l ih => cases hx : x.max <;> simp [hx, ih] <;> omega
  have := this r.temps
  omega

theorem Foreign.mono {qs qs' : List RE} {s : PyStr} (h : Foreign qs s) (hq : ∀ q ∈ qs', q ∈ qs) :
    Foreign qs' s := fun q hq' => h q (hq q hq')

theorem taf_runs {r : TafRecord} (h : r.WF)
    (ht : (1 ≤ r.day ∧ r.day ≤ 31) ∧ r.hour ≤ 23 ∧ r.minute ≤ 59) :
    RunsAt (Taf.handlers db now a) 0 (tafRunsOf r) := by
  have he := tafPatterns_eq db now a
  have l9 : (r.conds.weathers.map WeatherGroup.text).length ≤ 3 := by simpa using h.conds.weathers.1
  have l12 : (r.conds.clouds.map Layer.text).length ≤ 4 := by simpa using h.conds.clouds.1
  have l16 : (r.temps.map TafTempGroup.text).length ≤ 4 := by simpa using temps_len h
  have hweather : ∀ g ∈ r.conds.weathers.map WeatherGroup.text, ∃ m, WEATHER.match g = some m := by
    intro g hg
    obtain ⟨w, -, rfl⟩ := List.mem_map.1 hg
    exact (weather_fact w).1
  have hcloud : ∀ g ∈ r.conds.clouds.map Layer.text, ∃ m, CLOUD.match g = some m := by
    intro g hg
    obtain ⟨w, hw, rfl⟩ := List.mem_map.1 hg
    exact (layer_fact (h.conds.clouds.2 w hw)).1
  have htemp : ∀ g ∈ r.temps.map TafTempGroup.text, ∃ m, TafRegExp.TEMPERATURE.match g = some m := by
    intro g hg
    obtain ⟨w, hw, rfl⟩ := List.mem_map.1 hg
    exact (tafTemp_fact (h.temps w hw)).1
  -- the part after the visibility
  have late : ∀ b, 4 ≤ b → b ≤ 12 → RunsAt (Taf.handlers db now a) b
      [(12, r.conds.clouds.map Layer.text), (16, r.temps.map TafTempGroup.text)] := by
    intro b h0 h1
    refine RunsAt.cons h0 h1 (runAt_of he (n := 4) (re := CLOUD) hcloud ?_ l12 rfl
      (qs := TafRegExp.VISIBILITY :: (tafFirst ++ [TafRegExp.WIND, VISIBILITY, WEATHER]))
      (by simp [tafPatterns, tafFirst])) l12 fun b h0 h1 => ?_
    · intro g hg
      obtain ⟨w, hw, rfl⟩ := List.mem_map.1 (List.mem_of_mem_head? hg)
      have hw := h.conds.clouds.2 w hw
      exact Foreign.cons (layer_tafVis hw) (layer_foreign' hw)
    refine RunsAt.cons h0 h1 (runAt_of he (n := 4) (re := TafRegExp.TEMPERATURE) htemp ?_ l16 rfl
      (qs := TafRegExp.VISIBILITY :: (tafFirst ++ [TafRegExp.WIND, WEATHER, CLOUD]))
      (by simp [tafPatterns, tafFirst])) l16 fun _ _ _ => trivial
    intro g hg
    obtain ⟨w, hw, rfl⟩ := List.mem_map.1 (List.mem_of_mem_head? hg)
    exact tafTemp_foreign (h.temps w hw)
  refine ⟨Nat.le_refl _, ⟨fun k g hk => ?_, fun _ _ j h1 h2 => by omega⟩, ?_⟩
  · match k with
    | 0 => cases hk; exact accepts_at he rfl (Option.isSome_iff_exists.1 (by decide +kernel))
    | k + 1 => simp at hk
  rw [if_neg (by simp)]
  show RunsAt _ 1 _
  refine RunsAt.cons (b0 := 1) (Nat.le_refl _) (Nat.le_refl _) (runAt_of he (n := 1) (re := TafRegExp.AMD_COR) ?_
    (fun _ _ _ hq => absurd hq (by simp)) (by cases r.modifier <;> simp) rfl
    (qs := []) (by simp [tafPatterns])) (n := 1) (by cases r.modifier <;> simp) fun b h0 h1 => ?_
  · intro g hg
    rw [Option.mem_toList] at hg
    exact (amd_fact (h.modifier _ hg)).1
  refine ⟨h1, ⟨fun k g hk => ?_, fun g hg j h2 h3 => ?_⟩, ?_⟩
  · match k with
    | 0 => cases hk; exact accepts_at he rfl (station_fact h.station).1
    | 1 => cases hk; exact accepts_at he rfl (time_fact ht.1 ht.2.1 ht.2.2).1
    | k + 2 => simp at hk
  · cases hg
    exact refuses_at he (b := 1) (i := 2) (qs := [TafRegExp.AMD_COR]) (by simp [tafPatterns])
      (station_amd h.station) (by omega) h3
  rw [if_neg (by simp)]
  show RunsAt _ 4 _
  have l4 : (if r.missing then [py!"NIL"] else []).length ≤ 1 := by split <;> simp
  have l6 : (if r.cancelled then [py!"CNL"] else []).length ≤ 1 := by split <;> simp
  refine RunsAt.cons (b0 := 4) (Nat.le_refl _) (Nat.le_refl _) (runAt_of he (n := 1) (re := TafRegExp.NIL) ?_
    (fun _ _ _ hq => absurd hq (by simp)) l4 rfl
    (qs := []) (by simp [tafPatterns])) (n := 1) l4 fun b h0 h1 => ?_
  · intro g hg
    split at hg
    · rw [List.mem_singleton.1 hg]; exact nil_fact.1
    · simp at hg
  refine RunsAt.cons h0 h1 (runAt_of he (n := 1) (re := TafRegExp.VALID) ?_ ?_ (opt_len _ _) rfl
    (qs := [TafRegExp.NIL]) (by simp [tafPatterns])) (opt_len _ _) fun b h0 h1 => ?_
  · intro g hg
    simp only [List.mem_map, Option.mem_toList] at hg
    obtain ⟨w, hw, rfl⟩ := hg
    exact (valid_fact (h.valid w hw)).1
  · intro g hg
    have hg := List.mem_of_mem_head? hg
    simp only [List.mem_map, Option.mem_toList] at hg
    obtain ⟨w, hw, rfl⟩ := hg
    exact valid_foreign (h.valid w hw)
  refine RunsAt.cons h0 h1 (runAt_of he (n := 1) (re := TafRegExp.CANCELLED) ?_ ?_ l6 rfl
    (qs := [TafRegExp.NIL, TafRegExp.VALID]) (by simp [tafPatterns])) l6 fun b h0 h1 => ?_
  · intro g hg
    split at hg
    · rw [List.mem_singleton.1 hg]; exact cnl_fact.1
    · simp at hg
  · intro g hg
    have hg := List.mem_of_mem_head? hg
    split at hg
    · rw [List.mem_singleton.1 hg]; exact cnl_foreign
    · simp at hg
  refine RunsAt.cons h0 h1 (runAt_of he (n := 1) (re := TafRegExp.WIND) ?_ ?_ (opt_len _ _) rfl
    (qs := tafFirst) (by simp [tafPatterns, tafFirst])) (opt_len _ _) fun b h0 h1 => ?_
  · intro g hg
    simp only [List.mem_map, Option.mem_toList] at hg
    obtain ⟨w, hw, rfl⟩ := hg
    exact (tafWind_fact (h.conds.wind w hw) (h.wind w hw)).1
  · intro g hg
    have hg := List.mem_of_mem_head? hg
    simp only [List.mem_map, Option.mem_toList] at hg
    obtain ⟨w, hw, rfl⟩ := hg
    exact tafWind_foreign (h.conds.wind w hw)
  have hvis : RunAt (Taf.handlers db now a) 4 8 (r.conds.vis.toList.map VisGroup.text) := by
    refine runAt_of he (n := 1) (re := TafRegExp.VISIBILITY) ?_ ?_ (opt_len _ _) rfl
      (qs := tafFirst ++ [TafRegExp.WIND]) (by simp [tafPatterns, tafFirst])
    · intro g hg
      simp only [List.mem_map, Option.mem_toList] at hg
      obtain ⟨w, hw, rfl⟩ := hg
      exact (tafVis_fact (h.vis w hw)).1
    · intro g hg
      have hg := List.mem_of_mem_head? hg
      simp only [List.mem_map, Option.mem_toList] at hg
      obtain ⟨w, hw, rfl⟩ := hg
      exact vis_foreign' (h.conds.vis w hw).1
  cases hV : r.conds.vis with
  | none =>
    refine RunsAt.cons h0 h1 (gs := []) ⟨by simp, by simp⟩ (n := 1) (by simp) fun b h0 h1 => ?_
    refine RunsAt.cons h0 h1 (runAt_of he (n := 3) (re := WEATHER) hweather ?_ l9 rfl
      (qs := TafRegExp.VISIBILITY :: (tafFirst ++ [TafRegExp.WIND, VISIBILITY]))
      (by simp [tafPatterns, tafFirst])) l9 fun b h0 h1 => late b h0 h1
    intro g hg
    rw [List.head?_map, Option.mem_def, Option.map_eq_some_iff] at hg
    obtain ⟨w, hw, rfl⟩ := hg
    have := h.noVis hV w hw
    exact Foreign.cons (weather_tafVis w this.1 this.2) (weather_foreign' w)
  | some v =>
    rw [hV] at hvis
    refine ⟨h1, hvis.mono h0, ?_⟩
    rw [if_neg (by simp)]
    show RunsAt _ 9 _
    refine RunsAt.cons (b0 := 9) (Nat.le_refl _) (Nat.le_refl _) (runAt_of he (n := 3) (re := WEATHER) hweather
      (fun _ _ _ hq => absurd hq (by simp)) l9 rfl
      (qs := []) (by simp [tafPatterns])) l9 fun b h0 h1 => late b (by omega) h1

theorem change_runs {c : TafChange} (h : c.WF) : RunsAt ChangeForecasted.handlers 0 (changeRunsOf c) := by
  have he := changePatterns_eq
  have l4 : (c.conds.weathers.map WeatherGroup.text).length ≤ 3 := by simpa using h.conds.weathers.1
  have l7 : (c.conds.clouds.map Layer.text).length ≤ 4 := by simpa using h.conds.clouds.1
  refine ⟨Nat.le_refl _, ⟨fun k g hk => ?_, fun _ _ j h1 h2 => by omega⟩, ?_⟩
  · match k with
    | 0 => cases hk; exact accepts_at he rfl (kind_fact fun g hg => (h.fm g hg).1).1
    | k + 1 => simp at hk
  rw [if_neg (by simp)]
  show RunsAt _ 1 _
  refine RunsAt.cons (b0 := 1) (Nat.le_refl _) (Nat.le_refl _) (runAt_of he (n := 1) (re := TafRegExp.VALID) ?_
    (fun _ _ _ hq => absurd hq (by simp)) (opt_len _ _) rfl
    (qs := []) (by simp [changePatterns])) (opt_len _ _) fun b h0 h1 => ?_
  · intro g hg
    simp only [List.mem_map, Option.mem_toList] at hg
    obtain ⟨w, hw, rfl⟩ := hg
    exact (valid_fact (h.valid w hw)).1
  refine RunsAt.cons h0 h1 (runAt_of he (n := 1) (re := TafRegExp.WIND) ?_ ?_ (opt_len _ _) rfl
    (qs := tafFirst) (by simp [changePatterns, tafFirst])) (opt_len _ _) fun b h0 h1 => ?_
  · intro g hg
    simp only [List.mem_map, Option.mem_toList] at hg
    obtain ⟨w, hw, rfl⟩ := hg
    exact (tafWind_fact (h.conds.wind w hw) (h.wind w hw)).1
  · intro g hg
    have hg := List.mem_of_mem_head? hg
    simp only [List.mem_map, Option.mem_toList] at hg
    obtain ⟨w, hw, rfl⟩ := hg
    exact tafWind_foreign (h.conds.wind w hw)
  refine RunsAt.cons h0 h1 (runAt_of he (n := 1) (re := VISIBILITY) ?_ ?_ (opt_len _ _) rfl
    (qs := tafFirst ++ [TafRegExp.WIND]) (by simp [changePatterns, tafFirst])) (opt_len _ _) fun b h0 h1 => ?_
  · intro g hg
    simp only [List.mem_map, Option.mem_toList] at hg
    obtain ⟨w, hw, rfl⟩ := hg
    exact (vis_fact (h.conds.vis w hw).1).1
  · intro g hg
    have hg := List.mem_of_mem_head? hg
    simp only [List.mem_map, Option.mem_toList] at hg
    obtain ⟨w, hw, rfl⟩ := hg
    exact vis_foreign' (h.conds.vis w hw).1
  refine RunsAt.cons h0 h1 (runAt_of he (n := 3) (re := WEATHER) ?_ ?_ l4 rfl
    (qs := tafFirst ++ [TafRegExp.WIND, VISIBILITY]) (by simp [changePatterns, tafFirst])) l4 fun b h0 h1 => ?_
  · intro g hg
    obtain ⟨w, -, rfl⟩ := List.mem_map.1 hg
    exact (weather_fact w).1
  · intro g hg
    obtain ⟨w, -, rfl⟩ := List.mem_map.1 (List.mem_of_mem_head? hg)
    exact weather_foreign' w
  refine RunsAt.cons h0 h1 (runAt_of he (n := 4) (re := CLOUD) ?_ ?_ l7 rfl
    (qs := tafFirst ++ [TafRegExp.WIND, VISIBILITY, WEATHER]) (by simp [changePatterns, tafFirst])) l7
    fun b h0 h1 => trivial
  · intro g hg
    obtain ⟨w, hw, rfl⟩ := List.mem_map.1 hg
    exact (layer_fact (h.conds.clouds.2 w hw)).1
  · intro g hg
    obtain ⟨w, hw, rfl⟩ := List.mem_map.1 (List.mem_of_mem_head? hg)
    exact layer_foreign' (h.conds.clouds.2 w hw)

/-! ### The groups taken at the positions -/

structure TafTaken (c : List (PyStr × Nat)) (r : TafRecord) : Prop where
  type : taken c 0 0 = [py!"TAF"]
  modifier : taken c 1 1 = r.modifier.toList
  station : taken c 2 2 = [r.station]
  time : taken c 3 3 = [timeText r.day r.hour r.minute]
  missing : taken c 4 4 = if r.missing then [py!"NIL"] else []
  valid : taken c 5 5 = r.valid.toList.map ValidGroup.text
  cancelled : taken c 6 6 = if r.cancelled then [py!"CNL"] else []
  wind : taken c 7 7 = r.conds.wind.toList.map WindGroup.text
  vis : taken c 8 8 = r.conds.vis.toList.map VisGroup.text
  weathers : taken c 9 11 = r.conds.weathers.map WeatherGroup.text
  clouds : taken c 12 15 = r.conds.clouds.map Layer.text
  temps : taken c 16 19 = r.temps.map TafTempGroup.text

theorem tafPlacesOf_eq (r : TafRecord) : tafPlacesOf r =
    place 0 [py!"TAF"] ++ (place 1 r.modifier.toList ++ (place 2 [r.station] ++
    (place 3 [timeText r.day r.hour r.minute] ++ (place 4 (if r.missing then [py!"NIL"] else []) ++
    (place 5 (r.valid.toList.map ValidGroup.text) ++ (place 6 (if r.cancelled then [py!"CNL"] else []) ++
    (place 7 (r.conds.wind.toList.map WindGroup.text) ++ (place 8 (r.conds.vis.toList.map VisGroup.text) ++
    (place 9 (r.conds.weathers.map WeatherGroup.text) ++ (place 12 (r.conds.clouds.map Layer.text) ++
      place 16 (r.temps.map TafTempGroup.text))))))))))) := by
  simp only [tafPlacesOf, tafRunsOf, List.flatMap_cons, List.flatMap_nil, List.append_nil]
  rfl

theorem taf_taken {r : TafRecord} (h : r.WF) : TafTaken (tafPlacesOf r) r := by
  have l1 : r.modifier.toList.length ≤ 1 := by cases r.modifier <;> simp
  have l4 : (if r.missing then [py!"NIL"] else []).length ≤ 1 := by split <;> simp
  have l5 := opt_len r.valid ValidGroup.text
  have l6 : (if r.cancelled then [py!"CNL"] else []).length ≤ 1 := by split <;> simp
  have l7 := opt_len r.conds.wind WindGroup.text
  have l8 := opt_len r.conds.vis VisGroup.text
  have l9 : (r.conds.weathers.map WeatherGroup.text).length ≤ 3 := by simpa using h.conds.weathers.1
  have l12 : (r.conds.clouds.map Layer.text).length ≤ 4 := by simpa using h.conds.clouds.1
  have l16 : (r.temps.map TafTempGroup.text).length ≤ 4 := by simpa using temps_len h
  have one : ∀ x : PyStr, [x].length = 1 := fun _ => rfl
  rw [tafPlacesOf_eq]
  constructor <;>
  simp (disch := (first | omega | (simp only [one]; omega) | simp)) only [taken_append, taken_outside, taken_inside,
    List.nil_append, List.append_nil]

structure ChangeTaken (c : List (PyStr × Nat)) (x : TafChange) : Prop where
  indicator : taken c 0 0 = [x.kind.group]
  valid : taken c 1 1 = x.valid.toList.map ValidGroup.text
  wind : taken c 2 2 = x.conds.wind.toList.map WindGroup.text
  vis : taken c 3 3 = x.conds.vis.toList.map VisGroup.text
  weathers : taken c 4 6 = x.conds.weathers.map WeatherGroup.text
  clouds : taken c 7 10 = x.conds.clouds.map Layer.text

theorem change_taken {x : TafChange} (h : x.WF) : ChangeTaken (changePlacesOf x) x := by
  have l1 := opt_len x.valid ValidGroup.text
  have l2 := opt_len x.conds.wind WindGroup.text
  have l3 := opt_len x.conds.vis VisGroup.text
  have l4 : (x.conds.weathers.map WeatherGroup.text).length ≤ 3 := by simpa using h.conds.weathers.1
  have l7 : (x.conds.clouds.map Layer.text).length ≤ 4 := by simpa using h.conds.clouds.1
  have one : ∀ x : PyStr, [x].length = 1 := fun _ => rfl
  simp only [changePlacesOf, changeRunsOf, List.flatMap_cons, List.flatMap_nil, List.append_nil]
  constructor <;>
  simp (disch := (first | omega | (simp only [one]; omega) | simp)) only [taken_append, taken_outside, taken_inside,
    List.nil_append, List.append_nil]

end Verif.Props
