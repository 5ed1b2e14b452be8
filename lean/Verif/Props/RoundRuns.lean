import Verif.Props.RoundGroups
import Verif.Lemmas.MetarApart
import Verif.Lemmas.Fits

/-
The positions at which the groups of a METAR record are taken.
-/

namespace Verif.Props
open Spec MetarRegExp

variable {db : Database} {now : Now} {a : Args}

theorem accepts_of {i : Nat} {re : RE} {g : PyStr} (hp : metarPatterns[i]? = some re) (hf : Fact re g) :
    Accepts (Metar.handlers db now a) i g :=
  accepts_at (metarPatterns_eq db now a) hp hf.1

theorem refuses_of {i j : Nat} {qs : List RE} {g : PyStr} (hq : ∀ q ∈ (metarPatterns.take i).drop 3, q ∈ qs)
    (hf : Foreign qs g) (h1 : 3 ≤ j) (h2 : j < i) : ¬ Accepts (Metar.handlers db now a) j g :=
  refuses_at (metarPatterns_eq db now a) hq hf h1 h2

theorem run_of {i n : Nat} {qs : List RE} {re : RE} {gs : List PyStr} (h : ∀ g ∈ gs, Fact re g ∧ Foreign qs g)
    (hlen : gs.length ≤ n) (hp : (metarPatterns.drop i).take n = List.replicate n re)
    (hq : ∀ q ∈ (metarPatterns.take i).drop 3, q ∈ qs) : RunAt (Metar.handlers db now a) 3 i gs :=
  runAt_of (metarPatterns_eq db now a) (fun g hg => (h g hg).1.1)
    (fun g hg => (h g (List.mem_of_mem_head? hg)).2) hlen hp hq

/-- The groups of a record with their positions. -/
def runsOf (r : MetarRecord) : List (Nat × List PyStr) :=
  [(0, r.front), (3, r.modifier.toList), (4, r.wind.toList.map WindGroup.text),
   (5, r.variation.toList.map VariationGroup.text),
   (6, r.vis.toList.map VisGroup.text ++ r.minVis.toList.map VisGroup.text),
   (8, r.ranges.map RangeGroup.text), (11, r.weathers.map WeatherGroup.text),
   (14, r.clouds.map Layer.text), (18, r.temps.toList.map TempGroup.text),
   (19, r.pressures.map PressGroup.text), (21, r.recent.toList.map RecentGroup.text),
   (22, r.shears.map fun s => s.group.text), (25, r.sea.toList.map SeaGroup.text),
   (26, r.state.toList.map RwyStateGroup.text)]

/-- The groups of a record with their positions, one by one. -/
def placesOf (r : MetarRecord) : List (PyStr × Nat) := (runsOf r).flatMap fun x => place x.1 x.2

theorem placesOf_groups (r : MetarRecord) : (placesOf r).map (·.1) = groupsOf r := by
  simp only [placesOf, runsOf, List.flatMap_cons, List.flatMap_nil, List.map_append, place_map, groupsOf,
    MetarRecord.front, MetarRecord.early, MetarRecord.middle, MetarRecord.late, List.append_assoc,
    List.append_nil]

theorem opt_len {α β : Type} (o : Option α) (f : α → β) : (o.toList.map f).length ≤ 1 := by
  cases o <;> simp

theorem record_runs {r : MetarRecord} (h : r.WF)
    (ht : (1 ≤ r.day ∧ r.day ≤ 31) ∧ r.hour ≤ 23 ∧ r.minute ≤ 59) :
    RunsAt (Metar.handlers db now a) 0 (runsOf r) := by
  have shearWF : ∀ s ∈ r.shears, s.group.WF := by
    intro s hs
    have := h.shears.2 s hs
    cases s with
    | all => intro r hr; cases hr
    | runway l w => intro r hr; cases hr; exact this
  have late : ∀ b', 3 ≤ b' → b' ≤ 21 → RunsAt (Metar.handlers db now a) b'
      [(21, r.recent.toList.map RecentGroup.text),
       (22, r.shears.map fun s => s.group.text), (25, r.sea.toList.map SeaGroup.text),
       (26, r.state.toList.map RwyStateGroup.text)] := by
    intro b h0 h1
    refine RunsAt.cons h0 h1 (run_of (n := 1) (re := RECENT_WEATHER) ?_ (opt_len _ _) rfl
      (qs := [MODIFIER, WIND, WIND_VARIATION, VISIBILITY, MINIMUM_VISIBILITY, RUNWAY_RANGE, WEATHER, CLOUD,
        TEMPERATURES, PRESSURE]) (by simp [metarPatterns])) (opt_len _ _) fun b h0 h1 => ?_
    · intro g hg
      simp only [List.mem_map, Option.mem_toList] at hg
      obtain ⟨w, hw, rfl⟩ := hg
      exact ⟨recent_fact (h.recent w hw), recent_foreign w⟩
    refine RunsAt.cons h0 h1 (run_of (n := 3) (re := WINDSHEAR) ?_ (by simpa using h.shears.1) rfl
      (qs := [MODIFIER, WIND, WIND_VARIATION, VISIBILITY, MINIMUM_VISIBILITY, RUNWAY_RANGE, WEATHER, CLOUD,
        TEMPERATURES, PRESSURE, RECENT_WEATHER]) (by simp [metarPatterns])) (by simpa using h.shears.1)
      fun b h0 h1 => ?_
    · intro g hg
      simp only [List.mem_map] at hg
      obtain ⟨w, hw, rfl⟩ := hg
      exact ⟨shear_fact (shearWF w hw), shear_foreign (shearWF w hw)⟩
    refine RunsAt.cons h0 h1 (run_of (n := 1) (re := SEA_STATE) ?_ (opt_len _ _) rfl
      (qs := [MODIFIER, WIND, WIND_VARIATION, VISIBILITY, MINIMUM_VISIBILITY, RUNWAY_RANGE, WEATHER, CLOUD,
        TEMPERATURES, PRESSURE, RECENT_WEATHER, WINDSHEAR]) (by simp [metarPatterns])) (opt_len _ _)
      fun b h0 h1 => ?_
    · intro g hg
      simp only [List.mem_map, Option.mem_toList] at hg
      obtain ⟨w, hw, rfl⟩ := hg
      exact ⟨sea_fact (h.sea w hw), sea_foreign (h.sea w hw)⟩
    refine RunsAt.cons h0 h1 (run_of (n := 1) (re := RUNWAY_STATE) ?_ (opt_len _ _) rfl
      (qs := [MODIFIER, WIND, WIND_VARIATION, VISIBILITY, MINIMUM_VISIBILITY, RUNWAY_RANGE, WEATHER, CLOUD,
        TEMPERATURES, PRESSURE, RECENT_WEATHER, WINDSHEAR, SEA_STATE]) (by simp [metarPatterns]))
      (opt_len _ _) fun b h0 h1 => trivial
    · intro g hg
      simp only [List.mem_map, Option.mem_toList] at hg
      obtain ⟨w, hw, rfl⟩ := hg
      exact ⟨rwyState_fact (h.state w hw), rwyState_foreign (h.state w hw)⟩
  refine ⟨Nat.le_refl _, ⟨fun k g hk => ?_, fun _ _ j h1 h2 => by omega⟩, ?_⟩
  · match k with
    | 0 => cases hk; exact accepts_of rfl (type_fact r.speci)
    | 1 => cases hk; exact accepts_of rfl (station_fact h.station)
    | 2 => cases hk; exact accepts_of rfl (time_fact ht.1 ht.2.1 ht.2.2)
    | k + 3 => simp [MetarRecord.front] at hk
  rw [if_neg (by simp [MetarRecord.front])]
  show RunsAt _ 3 _
  refine RunsAt.cons (b0 := 3) (Nat.le_refl _) (Nat.le_refl _) (run_of (n := 1) (re := MODIFIER) ?_ (by cases r.modifier <;> simp) rfl
    (qs := []) (by simp [metarPatterns])) (n := 1) (by cases r.modifier <;> simp) fun b h0 h1 => ?_
  · intro g hg
    rw [Option.mem_toList] at hg
    exact ⟨modifier_fact (h.modifier _ hg), by simp [Foreign]⟩
  refine RunsAt.cons h0 h1 (run_of (n := 1) (re := WIND) ?_ (opt_len _ _) rfl
    (qs := [MODIFIER]) (by simp [metarPatterns])) (opt_len _ _) fun b h0 h1 => ?_
  · intro g hg
    simp only [List.mem_map, Option.mem_toList] at hg
    obtain ⟨w, hw, rfl⟩ := hg
    exact ⟨wind_fact (h.wind w hw), wind_foreign (h.wind w hw)⟩
  refine RunsAt.cons h0 h1 (run_of (n := 1) (re := WIND_VARIATION) ?_ (opt_len _ _) rfl
    (qs := [MODIFIER, WIND]) (by simp [metarPatterns])) (opt_len _ _) fun b h0 h1 => ?_
  · intro g hg
    simp only [List.mem_map, Option.mem_toList] at hg
    obtain ⟨w, hw, rfl⟩ := hg
    exact ⟨variation_fact (h.variation w hw), variation_foreign (h.variation w hw)⟩
  refine RunsAt.cons h0 h1 (n := 2) ?_ ?_ fun b h0 h1 => ?_
  · cases hv : r.vis with
    | none =>
      have : r.minVis = none := by
        cases hm : r.minVis with
        | none => rfl
        | some w => exact absurd hv (h.minVis w hm).2.2
      rw [this]
      exact ⟨by simp, by simp⟩
    | some v =>
      refine ⟨fun k g hk => ?_, fun g hg j h1 h2 => ?_⟩
      · match k with
        | 0 => cases hk; exact accepts_of rfl (vis_fact (h.vis v hv).1)
        | 1 =>
          cases hm : r.minVis with
          | none => rw [hm] at hk; cases hk
          | some w =>
            rw [hm] at hk; cases hk
            exact accepts_of rfl (minVis_fact (h.minVis w hm).1)
        | k + 2 => cases hm : r.minVis <;> rw [hm] at hk <;> simp at hk
      · cases hg
        exact refuses_of (qs := [MODIFIER, WIND, WIND_VARIATION]) (by simp [metarPatterns])
          (vis_foreign (h.vis v hv).1) h1 h2
  · have := opt_len r.vis VisGroup.text
    have := opt_len r.minVis VisGroup.text
    rw [List.length_append]; omega
  refine RunsAt.cons h0 h1 (run_of (n := 3) (re := RUNWAY_RANGE) ?_ (by simpa using h.ranges.1) rfl
    (qs := [MODIFIER, WIND, WIND_VARIATION, VISIBILITY, MINIMUM_VISIBILITY]) (by simp [metarPatterns]))
    (by simpa using h.ranges.1) fun b h0 h1 => ?_
  · intro g hg
    simp only [List.mem_map] at hg
    obtain ⟨w, hw, rfl⟩ := hg
    exact ⟨range_fact (h.ranges.2 w hw), range_foreign (h.ranges.2 w hw)⟩
  refine RunsAt.cons h0 h1 (run_of (n := 3) (re := WEATHER) ?_ (by simpa using h.weathers.1) rfl
    (qs := [MODIFIER, WIND, WIND_VARIATION, VISIBILITY, MINIMUM_VISIBILITY, RUNWAY_RANGE])
    (by simp [metarPatterns])) (by simpa using h.weathers.1) fun b h0 h1 => ?_
  · intro g hg
    simp only [List.mem_map] at hg
    obtain ⟨w, hw, rfl⟩ := hg
    exact ⟨weather_fact w, weather_foreign w⟩
  refine RunsAt.cons h0 h1 (run_of (n := 4) (re := CLOUD) ?_ (by simpa using h.clouds.1) rfl
    (qs := [MODIFIER, WIND, WIND_VARIATION, VISIBILITY, MINIMUM_VISIBILITY, RUNWAY_RANGE, WEATHER])
    (by simp [metarPatterns])) (by simpa using h.clouds.1) fun b h0 h1 => ?_
  · intro g hg
    simp only [List.mem_map] at hg
    obtain ⟨w, hw, rfl⟩ := hg
    exact ⟨layer_fact (h.clouds.2 w hw), layer_foreign (h.clouds.2 w hw)⟩
  have htemps : RunAt (Metar.handlers db now a) 3 18 (r.temps.toList.map TempGroup.text) := by
    refine run_of (n := 1) (re := TEMPERATURES) ?_ (opt_len _ _) rfl
      (qs := [MODIFIER, WIND, WIND_VARIATION, VISIBILITY, MINIMUM_VISIBILITY, RUNWAY_RANGE, WEATHER, CLOUD])
      (by simp [metarPatterns])
    intro g hg
    simp only [List.mem_map, Option.mem_toList] at hg
    obtain ⟨w, hw, rfl⟩ := hg
    exact ⟨temp_fact (h.temps w hw), temp_foreign (h.temps w hw)⟩
  cases hT : r.temps with
  | none =>
    refine RunsAt.cons h0 h1 (gs := []) ⟨by simp, by simp⟩ (n := 1) (by simp) fun b h0 h1 => ?_
    refine RunsAt.cons h0 h1 (run_of (n := 2) (re := PRESSURE) ?_ (by simpa using h.pressures.1) rfl
      (qs := [MODIFIER, WIND, WIND_VARIATION, VISIBILITY, MINIMUM_VISIBILITY, RUNWAY_RANGE, WEATHER, CLOUD,
        TEMPERATURES]) (by simp [metarPatterns])) (by simpa using h.pressures.1) fun b h0 h1 => late b h0 h1
    intro g hg
    simp only [List.mem_map] at hg
    obtain ⟨w, hw, rfl⟩ := hg
    have := h.pressures.2 w hw
    exact ⟨press_fact this.1, press_foreign this.1 fun hb => this.2 hb hT⟩
  | some t =>
    rw [hT] at htemps
    refine ⟨h1, htemps.mono h0, ?_⟩
    rw [if_neg (by simp)]
    show RunsAt _ 19 _
    have hlen : (r.pressures.map PressGroup.text).length ≤ 2 := by simpa using h.pressures.1
    refine ⟨Nat.le_refl _, ⟨fun k g hk => ?_, fun _ _ j h1 h2 => by omega⟩, late _ ?_ ?_⟩
    · have hlt : k < (r.pressures.map PressGroup.text).length := (List.getElem?_eq_some_iff.1 hk).1
      have hg := List.mem_of_getElem? hk
      simp only [List.mem_map] at hg
      obtain ⟨w, hw, rfl⟩ := hg
      have hf := press_fact (h.pressures.2 w hw).1
      match k with
      | 0 => exact accepts_of rfl hf
      | 1 => exact accepts_of rfl hf
      | k + 2 => omega
    · split <;> omega
    · split <;> omega

end Verif.Props
