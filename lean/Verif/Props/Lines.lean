import Verif.Lemmas.TafLines
import Verif.Props.Time

/-
C56: the text shown for a report, `str(report)`.
-/

namespace Verif.Props
open Spec

/-- The line of a station that is not in the database. -/
def noStation : PyStr := py!"Name: None | Coordinates: None None | Elevation: None m MSL | Country: None"

/-- C56. `str(metar)` is made of one line for each decoded group of the body, in the order of the
attributes, and then the text of each trend. Each line is the text of the attribute the report
holds; of two pressure groups both are shown and the report keeps the last. -/
theorem C56_metar_text {db : Database} {clock : Clock} {code : PyStr} {a : Args} {r : Metar}
    (h : Metar.new db clock code a = .ok r) {c : List (PyStr × Nat)}
    (hc : Decodes (Metar.handlers db (clock 2) a) (metarGroups r.body) c) :
    ∃ ps, FromGroups c 19 20 MetarRegExp.PRESSURE MetarPressure.new ps ∧
      (∀ p, ps.getLast? = some p → r.pressure = p) ∧
      r.str = strip (unlines (metarLines db c ps r ++ r.weatherTrends.list.map ChangePeriod.str)) :=
  Metar.new_lines h hc

example : (metarOk sampleClock
    py!"METAR SBGR 071200Z COR 27015G25KT 9999 -RA BKN010 Q1013 A2992 TEMPO TL1330 3000").map Metar.str =
    some (join py!"\n" [py!"Meteorological Aerodrome Report (METAR)",
      noStation, py!"2024-06-07 12:00:00", py!"correction",
      py!"W (270.0°) 15.0 kt gust of 25.0 kt", py!"10.0 km", py!"light rain",
      py!"broken at 1000.0 feet", py!"1013.0 hPa", py!"1013.2 hPa",
      py!"temporary from 2024-06-07 12:00:00 until 2024-06-07 13:30:00", py!"3.0 km"]) := by
  decide +kernel

/-- C56. The text of a METAR trend that begins with one of the three words: the indicator with the
period as finally decoded, and one line for each other decoded group. -/
theorem C56_trend_text {db : Database} {clock : Clock} {code : PyStr} {a : Args} {r : Metar}
    (h : Metar.new db clock code a = .ok r) {p : ChangePeriod} (hp : p ∈ r.weatherTrends.list)
    {text : PyStr} (ht : p.code = some text) {c : List (PyStr × Nat)}
    (hc : Decodes ChangePeriod.handlers (bodyGroups text) c)
    (hw : ∀ g, (g, 0) ∈ c → g ∈ [py!"TEMPO", py!"BECMG", py!"NOSIG"]) :
    p.str = strip (unlines (trendLines c p)) := by
  obtain ⟨ind, p1, h1, h2, h3, h4, h5, -, -⟩ := Metar.trend_decodes h hp ht hc
  have hR : ChangePeriod.Reading c (ChangePeriod.start text r.time.time ind) p1 := by
    rw [h4] at h5
    exact ⟨h5.1, h5.2, h5.3, h5.4⟩
  have hi : ind.code = none := by
    unfold TrendIndicator.new at h1
    simp only [bind_ok, pure_ok, changeIndicatorO] at h1
    obtain ⟨⟨x, y⟩, e1, e, -, rfl⟩ := h1
    cases e1
    rfl
  have := ChangePeriod.lines h3 h2 hR rfl hi hw
  rw [h4]
  show strip p1.core.string = _
  rw [this]
  rfl

/-- C56 fails for a trend whose first word only begins with an indicator: the word has no text, and
replacing the empty text repeats the period around the end of the line. -/
theorem C56_trend_text_counterexample :
    (metarOk sampleClock py!"METAR SBGR 071200Z TEMPOX AT1230 9999").map
        (fun r => r.weatherTrends.list.map ChangePeriod.str) =
      some [py!"at 2024-06-07 12:30:00\n at 2024-06-07 12:30:0010.0 km"] := by
  decide +kernel

/-- C56. `str(taf)` is made of one line for each decoded group of the body, in the order of the
attributes, the temperatures in the order of the text, and then the text of the indicator of each
change, as it was when the change was read, with an empty line after it. -/
theorem C56_taf_text {db : Database} {clock : Clock} {code : PyStr} {a : Args} {r : Taf}
    (h : Taf.new db clock code a = .ok r) {c : List (PyStr × Nat)}
    (hc : Decodes (Taf.handlers db (clock 1) a) (bodyGroups r.body) c) :
    ∃ ts cs, FromGroups c 16 19 TafRegExp.TEMPERATURE (fun m => TafTemperature.new m r.time.time) ts ∧
      Each (fun t x => ChangeForecasted.new t r.valid = .ok x) (r.changesCodes.filter (· ≠ [])) cs ∧
      r.str = strip (unlines (tafLines db c ts r ++ cs.map fun x => x.indicator.str ++ py!"\n")) := by
  obtain ⟨ts, h1, -, -, cs, h2, -, h3⟩ := Taf.new_lines h hc
  exact ⟨_, cs, FromGroups_tagged h1, h2, h3⟩

example : (tafOk sampleClock
    py!"TAF SBGR 071000Z 0712/0818 27015KT CAVOK TN10/0809Z TX25/0718Z BECMG 0800/0802 OVC010").map
      Taf.str =
    some (join py!"\n" [py!"Terminal Aerodrome Forecast (TAF)", noStation, py!"2024-06-07 10:00:00",
      py!"from 2024-06-07 12:00:00 until 2024-06-08 18:00:00", py!"W (270.0°) 15.0 kt",
      py!"Ceiling and Visibility OK", py!"10.0°C at 2024-06-08 09:00:00",
      py!"25.0°C at 2024-06-07 18:00:00",
      py!"becoming from 2024-06-08 00:00:00 until 2024-06-08 02:00:00"]) := by
  decide +kernel

/-- C56: nothing decoded in a change but its indicator is shown, and an FM change is shown with the
end it had before a later change cut it short. -/
theorem C56_change_text_counterexample :
    (tafOk sampleClock py!"TAF SBGR 071000Z 0712/0818 CAVOK FM071500 OVC010 FM080100 3000").map
        (fun r => (r.str, r.changes.list.map fun x => x.indicator.str)) =
      some (join py!"\n" [py!"Terminal Aerodrome Forecast (TAF)", noStation, py!"2024-06-07 10:00:00",
        py!"from 2024-06-07 12:00:00 until 2024-06-08 18:00:00", py!"Ceiling and Visibility OK",
        py!"from 2024-06-07 15:00:00 until 2024-06-08 18:00:00", py!"",
        py!"from 2024-06-08 01:00:00 until 2024-06-08 18:00:00"],
        [py!"from 2024-06-07 15:00:00 until 2024-06-08 00:00:00",
         py!"from 2024-06-08 01:00:00 until 2024-06-08 18:00:00"]) := by
  decide +kernel

end Verif.Props
