import Verif.Lemmas.Matched
import Verif.Lemmas.Fits

/-
The groups of a METAR are not taken for groups that come earlier in the report.
-/

namespace Verif
open Spec MetarRegExp

/-- The patterns of the groups of a METAR body. -/
def metarPatterns : List RE :=
  [TYPE, STATION, TIME, MODIFIER, WIND, WIND_VARIATION, VISIBILITY, MINIMUM_VISIBILITY, RUNWAY_RANGE,
   RUNWAY_RANGE, RUNWAY_RANGE, WEATHER, WEATHER, WEATHER, CLOUD, CLOUD, CLOUD, CLOUD, TEMPERATURES, PRESSURE,
   PRESSURE, RECENT_WEATHER, WINDSHEAR, WINDSHEAR, WINDSHEAR, SEA_STATE, RUNWAY_STATE]

theorem metarPatterns_eq (db : Database) (now : Now) (a : Args) :
    (Metar.handlers db now a).map Handler.regexp = metarPatterns := rfl

theorem Fact.foreign {re : RE} {qs : List RE} (h : qs.all (fun q => re.apart q []) = true) {s : PyStr}
    (hf : Fact re s) : Foreign qs s := by
  obtain ⟨⟨m, hm⟩, hn⟩ := hf
  exact RE.apart_all h hm hn (by simp)

theorem wind_foreign {w : WindGroup} (h : w.WF) : Foreign [MODIFIER] w.text :=
  (wind_fact h).foreign (by decide +kernel)

theorem variation_foreign {w : VariationGroup} (h : w.WF) : Foreign [MODIFIER, WIND] w.text :=
  (variation_fact h).foreign (by decide +kernel)

set_option maxRecDepth 100000 in
theorem vis_foreign {w : VisGroup} (h : w.WF) : Foreign [MODIFIER, WIND, WIND_VARIATION] w.text :=
  (vis_fact h).foreign (by decide +kernel)

set_option maxRecDepth 100000 in
theorem range_foreign {w : RangeGroup} (h : w.WF) :
    Foreign [MODIFIER, WIND, WIND_VARIATION, VISIBILITY, MINIMUM_VISIBILITY] w.text :=
  (range_fact h).foreign (by decide +kernel)

set_option maxRecDepth 100000 in
theorem weather_foreign (w : WeatherGroup) :
    Foreign [MODIFIER, WIND, WIND_VARIATION, VISIBILITY, MINIMUM_VISIBILITY, RUNWAY_RANGE] w.text := by
  obtain ⟨⟨m, hm⟩, hn⟩ := weather_fact w
  exact RE.apart_all' (by decide +kernel) hm hn

set_option maxRecDepth 100000 in
theorem layer_foreign {w : Layer} (h : w.WF) :
    Foreign [MODIFIER, WIND, WIND_VARIATION, VISIBILITY, MINIMUM_VISIBILITY, RUNWAY_RANGE, WEATHER] w.text :=
  (layer_fact h).foreign (by decide +kernel)

set_option maxRecDepth 100000 in
theorem temp_foreign {w : TempGroup} (h : w.WF) :
    Foreign [MODIFIER, WIND, WIND_VARIATION, VISIBILITY, MINIMUM_VISIBILITY, RUNWAY_RANGE, WEATHER, CLOUD]
      w.text :=
  (temp_fact h).foreign (by decide +kernel)

set_option maxRecDepth 100000 in
theorem press_foreign {w : PressGroup} (h : w.WF) (hb : ¬ w.Bare) :
    Foreign [MODIFIER, WIND, WIND_VARIATION, VISIBILITY, MINIMUM_VISIBILITY, RUNWAY_RANGE, WEATHER, CLOUD,
      TEMPERATURES] w.text := by
  obtain ⟨⟨m, hm⟩, hn⟩ := press_fact h
  refine RE.apart_all (but := [[.digit, .digit, .digit, .digit], [CC.one 47, CC.one 47, CC.one 47, CC.one 47]])
    (by decide +kernel) hm hn ?_
  have hlen : w.text.length ≠ 4 := by
    obtain ⟨l, n, i⟩ := w
    intro hl
    apply hb
    have hn4 : (pressNumberText n).length = 4 := by
      cases n with
      | none => rfl
      | some ds => exact (h ds rfl).1
    simp only [PressGroup.text, List.length_append, hn4] at hl
    refine ⟨?_, ?_⟩
    · cases l with
      | none => rfl
      | some x => cases x <;> simp [lettersText, PressLetters.text] at hl <;> omega
    · cases i with
      | false => rfl
      | true => simp at hl
  intro ks hk hs
  simp only [List.mem_cons, List.not_mem_nil, or_false] at hk
  rcases hk with rfl | rfl <;> exact hlen hs.length

set_option maxRecDepth 100000 in
theorem recent_foreign (w : RecentGroup) :
    Foreign [MODIFIER, WIND, WIND_VARIATION, VISIBILITY, MINIMUM_VISIBILITY, RUNWAY_RANGE, WEATHER, CLOUD,
      TEMPERATURES, PRESSURE] w.text := by
  have key : ([MODIFIER, WIND, WIND_VARIATION, VISIBILITY, MINIMUM_VISIBILITY, RUNWAY_RANGE, WEATHER, CLOUD,
      TEMPERATURES, PRESSURE].all fun q => q.noPrefix py!"RE") = true := by decide +kernel
  obtain ⟨t, ht⟩ : ∃ t, w.text = py!"RE" ++ t := ⟨_, by simp only [RecentGroup.text, List.append_assoc]; rfl⟩
  intro q hq
  rw [ht]
  exact RE.noPrefix_sound (List.all_eq_true.1 key q hq) (ht ▸ recent_noNl w)

theorem shear_foreign {w : ShearGroup} (h : w.WF) :
    Foreign [MODIFIER, WIND, WIND_VARIATION, VISIBILITY, MINIMUM_VISIBILITY, RUNWAY_RANGE, WEATHER, CLOUD,
      TEMPERATURES, PRESSURE, RECENT_WEATHER] w.text :=
  (shear_fact h).foreign (by decide +kernel)

theorem sea_foreign {w : SeaGroup} (h : w.WF) :
    Foreign [MODIFIER, WIND, WIND_VARIATION, VISIBILITY, MINIMUM_VISIBILITY, RUNWAY_RANGE, WEATHER, CLOUD,
      TEMPERATURES, PRESSURE, RECENT_WEATHER, WINDSHEAR] w.text :=
  (sea_fact h).foreign (by decide +kernel)

theorem rwyState_foreign {w : RwyStateGroup} (h : w.WF) :
    Foreign [MODIFIER, WIND, WIND_VARIATION, VISIBILITY, MINIMUM_VISIBILITY, RUNWAY_RANGE, WEATHER, CLOUD,
      TEMPERATURES, PRESSURE, RECENT_WEATHER, WINDSHEAR, SEA_STATE] w.text :=
  (rwyState_fact h).foreign (by decide +kernel)

end Verif
