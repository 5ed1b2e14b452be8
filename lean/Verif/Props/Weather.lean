import Verif.Lemmas.Recent
import Verif.Props.Exceptions

/-
C26, C38: weather and recent weather groups.
-/

namespace Verif.Props
open Verif.Spec

/-- C26. Every combination of an optional intensity, an optional descriptor and an optional
phenomenon is accepted as a weather group and gives the descriptions of exactly these parts, `None`
for those that are absent; nothing else is accepted. -/
theorem C26_weather :
    (∀ w : WeatherGroup, ∃ m, MetarRegExp.WEATHER.match w.text = some m ∧
      (Weather.new m).intensity = w.intensity.map Intensity.means ∧
      (Weather.new m).description = w.descriptor.map Descriptor.means ∧
      (Weather.new m).precipitation =
        (w.phenomenon.bind Phenomenon.precipitation).map Precipitation.means ∧
      (Weather.new m).obscuration =
        (w.phenomenon.bind Phenomenon.obscuration).map Obscuration.means ∧
      (Weather.new m).other =
        (w.phenomenon.bind Phenomenon.otherWeather).map OtherWeather.means) ∧
    ∀ s m, MetarRegExp.WEATHER.match s = some m → 10 ∉ s → ∃ w : WeatherGroup, s = w.text := by
  refine ⟨fun w => ?_, fun s m hm hn => ?_⟩
  · obtain ⟨m, x, h1, h2, -, h3⟩ := weather_reads.1 w trivial
    cases h2
    exact ⟨m, h1, h3⟩
  · obtain ⟨w, -, h⟩ := weather_reads.2 s m hm hn
    exact ⟨w, h⟩

/-- C26. The weathers of a METAR, a trend, a TAF and a TAF change say, in order, what the weather
groups decoded in it state. -/
theorem C26_reports (db : Database) (clock : Clock) (code : PyStr) (a : Args) :
    (∀ r c, Metar.new db clock code a = .ok r →
      Decodes (Metar.handlers db (clock 2) a) (metarGroups r.body) c →
      ReadAll c 11 13 weatherGrammar r.core.weathers.list) ∧
    (∀ r p text c, Metar.new db clock code a = .ok r → p ∈ r.weatherTrends.list →
      p.code = some text → Decodes ChangePeriod.handlers (bodyGroups text) c →
      ReadAll c 5 7 weatherGrammar p.core.weathers.list) ∧
    (∀ r c, Taf.new db clock code a = .ok r →
      Decodes (Taf.handlers db (clock 1) a) (bodyGroups r.body) c →
      ReadAll c 9 11 weatherGrammar r.core.weathers.list) ∧
    (∀ r x c, Taf.new db clock code a = .ok r → x ∈ r.changes.list →
      Decodes ChangeForecasted.handlers (changeGroups x.code) c →
      ReadAll c 4 6 weatherGrammar x.core.weathers.list) := by
  refine ⟨fun r c h hc => ?_, fun r p text c h hp ht hc => ?_, fun r c h hc => ?_,
    fun r x c h hx hc => ?_⟩
  · obtain ⟨_, -, ho, hR, hn⟩ := Metar.new_decodes h hc
    exact weather_reads.ifOk.all hR.weathers.1 hn
  · obtain ⟨_, _, -, ho, -, -, hR, -, hn⟩ := Metar.trend_decodes h hp ht hc
    exact weather_reads.ifOk.all hR.weathers.1 hn
  · obtain ⟨_, _, -, -, ho, hR, hn⟩ := Taf.new_decodes h hc
    exact weather_reads.ifOk.all hR.weathers.1 hn
  · obtain ⟨_, ho, -, -, hR, -, hn⟩ := Taf.change_decodes h hx hc
    exact weather_reads.ifOk.all hR.weathers.1 hn

/-- Groups for the theorems above. -/
example : (WeatherGroup.mk (some .heavyVicinity) (some .TS) (some (.prec .GR))).text =
    py!"+VCTSGR" := by decide
example : (WeatherGroup.mk none none (some (.other .NSW))).text = py!"NSW" := by decide
/-- A combination of two phenomena is not a weather group. -/
example : MetarRegExp.WEATHER.match py!"RASN" = none := by decide +kernel
/-- The empty text is one, which is why a blank too many in a report makes a weather. -/
example : (WeatherGroup.mk none none none).text = [] := rfl

/-- Reports with weather groups. -/
example : (match Metar.new sampleDb sampleClock
      py!"METAR SKBO 151200Z 23015KT 3000 -TSRA BCFG VCSS OVC010 18/17 Q1012" {} with
    | .ok r => decide (r.core.weathers.list.map (fun w =>
        [w.intensity, w.description, w.precipitation, w.obscuration, w.other]) =
        [[some py!"light", some py!"thunderstorm", some py!"rain", none, none],
         [none, some py!"patches of", none, some py!"fog", none],
         [some py!"nearby", none, none, none, some py!"sandstorm"]])
    | .error _ => false) = true := by decide +kernel

/-- C38. Every recent weather group (`RE`, optional descriptor, precipitation, obscuration and other
phenomenon) is accepted and gives the descriptions of exactly its parts; nothing else is accepted. -/
theorem C38_recent :
    (∀ w : RecentGroup, w.WF → ∃ m, MetarRegExp.RECENT_WEATHER.match w.text = some m ∧
      (RecentWeather.new m).description = w.descriptor.map Descriptor.means ∧
      (RecentWeather.new m).precipitation = w.precipitation.map Precipitation.means ∧
      (RecentWeather.new m).obscuration = w.obscuration.map Obscuration.means ∧
      (RecentWeather.new m).other = w.other.map OtherWeather.means) ∧
    ∀ s m, MetarRegExp.RECENT_WEATHER.match s = some m → 10 ∉ s →
      ∃ w : RecentGroup, w.WF ∧ s = w.text := by
  refine ⟨fun w hw => ?_, recent_reads.2⟩
  obtain ⟨m, x, h1, h2, -, h3⟩ := recent_reads.1 w hw
  cases h2
  exact ⟨m, h1, h3⟩

/-- C38. The recent weather of a METAR says what the group decoded in it states. -/
theorem C38_report (db : Database) (clock : Clock) (code : PyStr) (a : Args) (r : Metar)
    (h : Metar.new db clock code a = .ok r) (c : List (PyStr × Nat))
    (hc : Decodes (Metar.handlers db (clock 2) a) (metarGroups r.body) c) :
    ReadAt c 21 recentGrammar RecentWeather.none r.recentWeather := by
  obtain ⟨_, -, ho, hR, hn⟩ := Metar.new_decodes h hc
  exact recent_reads.ifOk.at hR.recent ho hn

example : (RecentGroup.mk (some .FZ) (some .RA) none none).WF ∧
    (RecentGroup.mk (some .FZ) (some .RA) none none).text = py!"REFZRA" :=
  ⟨⟨by simp, by simp⟩, by decide⟩

example : (match Metar.new sampleDb sampleClock
      py!"METAR SKBO 151200Z 23015KT 3000 OVC010 18/17 Q1012 RETSRA" {} with
    | .ok r => decide (r.recentWeather.description = some py!"thunderstorm" ∧
        r.recentWeather.precipitation = some py!"rain" ∧ r.recentWeather.other = none)
    | .error _ => false) = true := by decide +kernel

end Verif.Props
