import Verif.Lemmas.GroupText
import Verif.Props.Wind
import Verif.Props.Visibility
import Verif.Props.Weather
import Verif.Props.CloudReports
import Verif.Props.Temperatures
import Verif.Props.Runway
import Verif.Props.Time

/-
C61-C66: what is shown of the groups (`str` of the decoded objects).
-/

namespace Verif.Props
open Spec

/-- How a measure other than zero is shown. -/
theorem measure_shown {unit s t : PyStr} {q : Rat} (hq : q ≠ 0) (hs : OneDecimal q s)
    (ht : t = s ++ unit) : Measure unit q t := by
  unfold Measure
  rw [if_neg hq]
  exact ⟨s, hs, ht⟩

section generic
variable {γ α : Type} {G : Grammar γ α} {str : α → PyStr} {Shows : γ → PyStr → Prop}

theorem reads_showing {re : RE} {f : Match → Except Exc α} (h : Reads G re f)
    (hs : ∀ w x, G.WF w → G.Says w x → Shows w (str x)) : Reads (G.showing str Shows) re f := by
  refine ⟨fun w hw => ?_, h.2⟩
  obtain ⟨m, x, h1, h2, h3⟩ := h.1 w hw
  exact ⟨m, x, h1, h2, h3, hs w x hw h3⟩

theorem readsIfOk_showing {re : RE} {f : Match → Except Exc α} (h : ReadsIfOk G re f)
    (hs : ∀ w x, G.WF w → G.Says w x → Shows w (str x)) : ReadsIfOk (G.showing str Shows) re f := by
  refine ⟨fun w hw => ?_, h.2⟩
  obtain ⟨m, h1, h2⟩ := h.1 w hw
  exact ⟨m, h1, fun x hx => ⟨h2 x hx, hs w x hw (h2 x hx)⟩⟩

theorem readAt_showing {c : List (PyStr × Nat)} {i : Nat} {d x : α} (h : ReadAt c i G d x)
    (hs : ∀ w x, G.WF w → G.Says w x → Shows w (str x)) : ReadAt c i (G.showing str Shows) d x :=
  ⟨h.form, fun w hw hg => ⟨h.value w hw hg, hs w x hw (h.value w hw hg)⟩, h.absent⟩

theorem saysText_showing {g : PyStr} {x : α} (h : SaysText G g x)
    (hs : ∀ w x, G.WF w → G.Says w x → Shows w (str x)) : SaysText (G.showing str Shows) g x :=
  ⟨h.1, fun w hw hg => ⟨h.2 w hw hg, hs w x hw (h.2 w hw hg)⟩⟩

theorem readAll_showing {c : List (PyStr × Nat)} {lo hi : Nat} {xs : List α} (h : ReadAll c lo hi G xs)
    (hs : ∀ w x, G.WF w → G.Says w x → Shows w (str x)) : ReadAll c lo hi (G.showing str Shows) xs := by
  unfold ReadAll at h ⊢
  generalize taken c lo hi = gs at h
  induction h with
  | nil => exact .nil
  | cons h1 _ ih => exact .cons (saysText_showing h1 hs) ih

theorem readLast_showing {c : List (PyStr × Nat)} {lo hi : Nat} {d x : α} (h : ReadLast c lo hi G d x)
    (hs : ∀ w x, G.WF w → G.Says w x → Shows w (str x)) : ReadLast c lo hi (G.showing str Shows) d x :=
  ⟨fun g hg => saysText_showing (h.1 g hg) hs, h.2⟩

end generic

/-! ### C61: wind -/

def windShown := windGrammar.showing MetarWind.str WindGroup.Shows
def tafWindShown := tafWindGrammar.showing MetarWind.str WindGroup.Shows
def variationShown := variationGrammar.showing WindVariation.str VariationGroup.Shows

/-- C61. `str` of a wind: the point of the compass and the degrees in brackets, the speed in knots
and the gust, the missing parts left out and the rest separated by single blanks. -/
theorem C61_wind_text :
    Reads windShown MetarRegExp.WIND MetarWind.new ∧ Reads tafWindShown TafRegExp.WIND MetarWind.new ∧
    Reads variationShown MetarRegExp.WIND_VARIATION WindVariation.new :=
  ⟨reads_showing metarWind_reads fun _ _ hw h => wind_shown hw h,
   reads_showing tafWind_reads fun _ _ hw h => wind_shown hw.1 h,
   reads_showing variation_reads fun _ _ hw h => variation_shown hw h⟩

/-- C61. The same of the winds of a METAR, a trend, a TAF and a TAF change. -/
theorem C61_reports (db : Database) (clock : Clock) (code : PyStr) (a : Args) :
    (∀ r c, Metar.new db clock code a = .ok r →
      Decodes (Metar.handlers db (clock 2) a) (metarGroups r.body) c →
      ReadAt c 4 windShown MetarWind.none r.core.wind ∧
      ReadAt c 5 variationShown WindVariation.none r.windVariation) ∧
    (∀ r p text c, Metar.new db clock code a = .ok r → p ∈ r.weatherTrends.list →
      p.code = some text → Decodes ChangePeriod.handlers (bodyGroups text) c →
      ReadAt c 3 windShown MetarWind.none p.core.wind) ∧
    (∀ r c, Taf.new db clock code a = .ok r →
      Decodes (Taf.handlers db (clock 1) a) (bodyGroups r.body) c →
      ReadAt c 7 tafWindShown MetarWind.none r.core.wind) ∧
    (∀ r x c, Taf.new db clock code a = .ok r → x ∈ r.changes.list →
      Decodes ChangeForecasted.handlers (changeGroups x.code) c →
      ReadAt c 2 tafWindShown MetarWind.none x.core.wind) := by
  obtain ⟨h1, h2, h3, h4⟩ := C16_reports db clock code a
  refine ⟨fun r c h hc => ⟨readAt_showing (h1 r c h hc) fun _ _ hw h => wind_shown hw h,
      readAt_showing (C20_report db clock code a r h c hc) fun _ _ hw h => variation_shown hw h⟩,
    fun r p t c h hp ht hc => readAt_showing (h2 r p t c h hp ht hc) fun _ _ hw h => wind_shown hw h,
    fun r c h hc => readAt_showing (h3 r c h hc) fun _ _ hw h => wind_shown hw.1 h,
    fun r x c h hx hc => readAt_showing (h4 r x c h hx hc) fun _ _ hw h => wind_shown hw.1 h⟩

/-- The text of a wind in knots is determined by the group. -/
example : (WindGroup.mk (.tens 23) false (.digits py!"15") (some (false, py!"27")) false).Shows
    py!"SW (230.0°) 15.0 kt gust of 27.0 kt" := by
  refine ⟨[py!"SW", py!"(230.0°)"], [py!"15.0 kt"], py!" gust of 27.0 kt", ?_, ⟨_, ?_, rfl⟩, ?_, by decide⟩
  · exact ⟨_, _, ⟨⟨10, rfl, 0, by decide +kernel⟩, rfl⟩, by decide⟩
  · show _ = _; decide
  · exact ⟨_, rfl, by decide⟩
/-- Metres per second are shown in knots, with one decimal. -/
example : (WindGroup.mk .vrb false (.digits py!"05") none true).Shows py!"variable wind 9.7 kt" := by
  refine ⟨_, [py!"9.7 kt"], _, rfl, ⟨_, ?_, rfl⟩, rfl, by decide⟩
  exact measure_shown (by decide +kernel) ⟨97, (by decide : py!"9.7" = _), by decide +kernel⟩ (by decide)
/-- Finding: a calm wind is shown without brackets and units. -/
theorem C61_calm : (metarOk sampleClock py!"METAR SBGR 071200Z 00000KT 9999").map
    (fun r => r.core.wind.str) = some py!"N 0.0 0.0" := by decide +kernel

/-! ### C62: visibility and runway visual range -/

def visShown := visGrammar.showing Visibility.str VisGroup.Shows
def minVisShown := minVisGrammar.showing Visibility.str VisGroup.Shows
def rangeShown := rangeGrammar.showing RunwayRange.str RangeGroup.Shows

/-- C62. `str` of a visibility: the kilometres with one decimal and the direction, or the words for
CAVOK; `str` of a runway visual range: the runway, the lower and the upper value with their limits in
metres, and the tendency. -/
theorem C62_visibility_text :
    ReadsIfOk visShown MetarRegExp.VISIBILITY prevailing ∧
    ReadsIfOk minVisShown MetarRegExp.MINIMUM_VISIBILITY minimumVisibility ∧
    Reads rangeShown MetarRegExp.RUNWAY_RANGE RunwayRange.new :=
  ⟨readsIfOk_showing metarVis_reads fun _ _ hw h => vis_shown hw h,
   readsIfOk_showing minVis_reads fun _ _ hw h => vis_shown hw.1 h,
   reads_showing range_reads fun _ _ hw h => range_shown hw h⟩

/-- C62. The same of the visibilities of a METAR, a trend and a TAF change, and of the runway visual
ranges of a METAR; in the body of a TAF the visibility is the one its group begins with. -/
theorem C62_reports (db : Database) (clock : Clock) (code : PyStr) (a : Args) :
    (∀ r c, Metar.new db clock code a = .ok r →
      Decodes (Metar.handlers db (clock 2) a) (metarGroups r.body) c →
      ReadAt c 6 visShown Visibility.none r.core.prevailing ∧
      ReadAt c 7 minVisShown Visibility.none r.minimumVisibility ∧
      ReadAll c 8 10 rangeShown r.runwayRanges.list) ∧
    (∀ r p text c, Metar.new db clock code a = .ok r → p ∈ r.weatherTrends.list →
      p.code = some text → Decodes ChangePeriod.handlers (bodyGroups text) c →
      ReadAt c 4 visShown Visibility.none p.core.prevailing) ∧
    (∀ r c, Taf.new db clock code a = .ok r →
      Decodes (Taf.handlers db (clock 1) a) (bodyGroups r.body) c →
      ∀ g, (g, 8) ∈ c → ∃ (w : VisGroup) (rest : PyStr), tafVisGrammar.WF w ∧ g = w.text ++ rest ∧
        w.Shows r.core.prevailing.str) ∧
    (∀ r x c, Taf.new db clock code a = .ok r → x ∈ r.changes.list →
      Decodes ChangeForecasted.handlers (changeGroups x.code) c →
      ReadAt c 3 visShown Visibility.none x.core.prevailing) := by
  obtain ⟨h1, h2, h3⟩ := C21_reports db clock code a
  refine ⟨fun r c h hc => ⟨readAt_showing (h1 r c h hc).1 fun _ _ hw h => vis_shown hw h,
      readAt_showing (h1 r c h hc).2 fun _ _ hw h => vis_shown hw.1 h,
      readAll_showing (C25_report db clock code a r c h hc) fun _ _ hw h => range_shown hw h⟩,
    fun r p t c h hp ht hc => readAt_showing (h2 r p t c h hp ht hc) fun _ _ hw h => vis_shown hw h,
    fun r c h hc g hg => ?_,
    fun r x c h hx hc => readAt_showing (h3 r x c h hx hc) fun _ _ hw h => vis_shown hw h⟩
  obtain ⟨w, rest, hw, e, hs⟩ := (C21_taf db clock code a r h c hc).1 g hg
  exact ⟨w, rest, hw, e, vis_shown hw.1 hs⟩

example : (VisGroup.metres (.digits py!"1500") (some py!"NE")).Shows py!"1.5 km to NE (45.0°)" :=
  ⟨py!"1.5 km", py!" to NE (45.0°)", ⟨py!"1.5", ⟨15, by decide, by decide +kernel⟩, by decide⟩,
    ⟨py!"NE", _, ⟨⟨2, rfl, 0, by decide +kernel⟩, rfl⟩, by decide⟩, by decide⟩
/-- One and a half miles. -/
example : (VisGroup.range ⟨.exact, some py!"1", true, some (49, 50), .sm⟩).Shows py!"2.8 km" :=
  ⟨py!"2.8 km", [], ⟨py!"2.8", ⟨28, by decide, by decide +kernel⟩, by decide⟩, rfl, by decide⟩
example : (RangeGroup.mk ⟨py!"07", some .right⟩ ⟨some .below, py!"0150"⟩ (some ⟨some .above, py!"2000"⟩)
    true (some .down)).Shows
    py!"runway 07 right below of 45.7 m varying to above of 609.6 m, decreasing" := by
  refine ⟨py!"below of 45.7 m", py!" varying to above of 609.6 m", ⟨py!"45.7 m", by decide,
    measure_shown (by decide +kernel) ⟨457, (by decide : py!"45.7" = _), by decide +kernel⟩ (by decide)⟩, ?_, by decide⟩
  exact ⟨py!"above of 609.6 m", ⟨py!"609.6 m", by decide,
    measure_shown (by decide +kernel) ⟨6096, (by decide +kernel : py!"609.6" = _), by decide +kernel⟩
      (by decide)⟩, by decide⟩
/-- Finding: an upper value of zero is not shown. -/
theorem C62_zero_high : (metarOk sampleClock py!"METAR SBGR 071200Z 0100 R09/0050V0000").map
    (fun r => r.runwayRanges.list.map RunwayRange.str) = some [py!"runway 09 50.0 m"] := by
  decide +kernel

/-! ### C63: weather -/

def weatherShown := weatherGrammar.showing Weather.str fun w t => t = w.shows
def recentShown := recentGrammar.showing RecentWeather.str fun w t => t = w.shows

/-- C63. `str` of a weather group: the descriptions of its parts separated by single blanks, in the
order intensity, descriptor, precipitation, obscuration, other; the same without the intensity for
recent weather. -/
theorem C63_weather_text :
    Reads weatherShown MetarRegExp.WEATHER (fun m => .ok (Weather.new m)) ∧
    Reads recentShown MetarRegExp.RECENT_WEATHER (fun m => .ok (RecentWeather.new m)) :=
  ⟨reads_showing weather_reads fun _ _ _ h => weather_shown h,
   reads_showing recent_reads fun _ _ _ h => recent_shown h⟩

/-- C63. The same of the weathers of reports. -/
theorem C63_reports (db : Database) (clock : Clock) (code : PyStr) (a : Args) :
    (∀ r c, Metar.new db clock code a = .ok r →
      Decodes (Metar.handlers db (clock 2) a) (metarGroups r.body) c →
      ReadAll c 11 13 weatherShown r.core.weathers.list ∧
      ReadAt c 21 recentShown RecentWeather.none r.recentWeather) ∧
    (∀ r p text c, Metar.new db clock code a = .ok r → p ∈ r.weatherTrends.list →
      p.code = some text → Decodes ChangePeriod.handlers (bodyGroups text) c →
      ReadAll c 5 7 weatherShown p.core.weathers.list) ∧
    (∀ r c, Taf.new db clock code a = .ok r →
      Decodes (Taf.handlers db (clock 1) a) (bodyGroups r.body) c →
      ReadAll c 9 11 weatherShown r.core.weathers.list) ∧
    (∀ r x c, Taf.new db clock code a = .ok r → x ∈ r.changes.list →
      Decodes ChangeForecasted.handlers (changeGroups x.code) c →
      ReadAll c 4 6 weatherShown x.core.weathers.list) := by
  obtain ⟨h1, h2, h3, h4⟩ := C26_reports db clock code a
  exact ⟨fun r c h hc => ⟨readAll_showing (h1 r c h hc) fun _ _ _ h => weather_shown h,
      readAt_showing (C38_report db clock code a r h c hc) fun _ _ _ h => recent_shown h⟩,
    fun r p t c h hp ht hc => readAll_showing (h2 r p t c h hp ht hc) fun _ _ _ h => weather_shown h,
    fun r c h hc => readAll_showing (h3 r c h hc) fun _ _ _ h => weather_shown h,
    fun r x c h hx hc => readAll_showing (h4 r x c h hx hc) fun _ _ _ h => weather_shown h⟩

example : (WeatherGroup.mk (some .heavyVicinity) (some .TS) (some (.prec .GR))).shows =
    py!"nearby heavy thunderstorm hail" := by decide
example : (RecentGroup.mk (some .FZ) (some .RA) none none).shows = py!"freezing rain" := by decide

/-! ### C64: clouds -/

def cloudShown := cloudGrammar.showing Cloud.str fun l t => t = l.shows

/-- C64. `str` of a cloud: the cover, the height in feet exactly as reported (100 times the three
digits) although it is stored in metres, and the type. -/
theorem C64_cloud_text : Reads cloudShown MetarRegExp.CLOUD Cloud.fromMetar :=
  reads_showing cloud_reads fun _ _ _ h => cloud_shown h

/-- C64. The same of the clouds of reports. -/
theorem C64_reports (db : Database) (clock : Clock) (code : PyStr) (a : Args) :
    (∀ r c, Metar.new db clock code a = .ok r →
      Decodes (Metar.handlers db (clock 2) a) (metarGroups r.body) c →
      ReadAll c 14 17 cloudShown r.core.clouds.list) ∧
    (∀ r p text c, Metar.new db clock code a = .ok r → p ∈ r.weatherTrends.list →
      p.code = some text → Decodes ChangePeriod.handlers (bodyGroups text) c →
      ReadAll c 8 11 cloudShown p.core.clouds.list) ∧
    (∀ r c, Taf.new db clock code a = .ok r →
      Decodes (Taf.handlers db (clock 1) a) (bodyGroups r.body) c →
      ReadAll c 12 15 cloudShown r.core.clouds.list) ∧
    (∀ r x c, Taf.new db clock code a = .ok r → x ∈ r.changes.list →
      Decodes ChangeForecasted.handlers (changeGroups x.code) c →
      ReadAll c 7 10 cloudShown x.core.clouds.list) := by
  obtain ⟨h1, h2, h3, h4⟩ := C27_reports db clock code a
  exact ⟨fun r c h hc => readAll_showing (h1 r c h hc) fun _ _ _ h => cloud_shown h,
    fun r p t c h hp ht hc => readAll_showing (h2 r p t c h hp ht hc) fun _ _ _ h => cloud_shown h,
    fun r c h hc => readAll_showing (h3 r c h hc) fun _ _ _ h => cloud_shown h,
    fun r x c h hx hc => readAll_showing (h4 r x c h hx hc) fun _ _ _ h => cloud_shown h⟩

example : (Layer.mk .bkn (.hundreds py!"010") .cb).shows = py!"broken at 1000.0 feet of cumulonimbus" ∧
    (Layer.mk .ovc .undef .absent).shows = py!"overcast at undefined height" ∧
    (Layer.mk .nsc .absent .absent).shows = py!"clear" ∧
    (Layer.mk .vv (.hundreds py!"002") .absent).shows = py!"indefinite ceiling at 200.0 feet" := by
  decide +kernel
/-- Finding: a cloud at the ground is shown at undefined height, and without its type. -/
theorem C64_ground : (metarOk sampleClock py!"METAR SBGR 071200Z 0100 OVC000CB").map
    (fun r => r.core.clouds.list.map Cloud.str) = some [py!"overcast at undefined height"] := by
  decide +kernel

/-! ### C65: temperatures and pressure -/

def tempShown := tempGrammar.showing Temperatures.str fun g t => t = g.shows
def pressShown := pressGrammar.showing MetarPressure.str PressGroup.Shows

/-- C65. `str` of temperatures: both with sign and one decimal, or that one is missing; `str` of a
pressure: hectopascals with one decimal, whatever the unit of the group. -/
theorem C65_temperature_text :
    Reads tempShown MetarRegExp.TEMPERATURES Temperatures.new ∧
    Reads pressShown MetarRegExp.PRESSURE MetarPressure.new :=
  ⟨reads_showing temp_reads fun _ _ _ h => temp_shown h,
   reads_showing press_reads fun _ _ hw h => press_shown hw h⟩

/-- C65. The same of the temperatures and the last pressure of a METAR. -/
theorem C65_report (db : Database) (clock : Clock) (code : PyStr) (a : Args) (r : Metar)
    (c : List (PyStr × Nat)) (h : Metar.new db clock code a = .ok r)
    (hc : Decodes (Metar.handlers db (clock 2) a) (metarGroups r.body) c) :
    ReadAt c 18 tempShown ⟨none, none, none⟩ r.temperatures ∧
    ReadLast c 19 20 pressShown ⟨none, none⟩ r.pressure :=
  ⟨readAt_showing (C33_report db clock code a r c h hc) fun _ _ _ h => temp_shown h,
   readLast_showing (C34_report db clock code a r c h hc) fun _ _ hw h => press_shown hw h⟩

example : (TempGroup.mk ⟨none, .digits py!"18"⟩ ⟨some .letter, .digits py!"02"⟩).shows =
      py!"temperature: 18.0°C | dewpoint: -2.0°C" ∧
    (TempGroup.mk ⟨none, .slashes⟩ ⟨some .letter, .digits py!"02"⟩).shows =
      py!"no temperature | dewpoint: -2.0°C" ∧
    (TempGroup.mk ⟨none, .digits py!"18"⟩ ⟨none, .letterX⟩).shows =
      py!"temperature: 18.0°C | no dewpoint" := by decide +kernel
/-- 29.92 inches. -/
example : (PressGroup.mk (some .A) (some py!"2992") false).Shows py!"1013.2 hPa" := by
  exact measure_shown (by decide +kernel)
    ⟨10132, (by decide +kernel : py!"1013.2" = _), by decide +kernel⟩ (by decide)
/-- Findings: a zero has no unit, minus zero keeps its sign, and an unknown temperature is left blank
beside a dew point of zero. -/
theorem C65_zero :
    (metarOk sampleClock py!"METAR SBGR 071200Z 9999 00/M00").map (fun r => r.temperatures.str) =
      some py!"temperature: 0.0 | dewpoint: -0.0" ∧
    (metarOk sampleClock py!"METAR SBGR 071200Z 9999 XX/00").map (fun r => r.temperatures.str) =
      some py!"temperature:  | dewpoint: 0.0" := by decide +kernel

/-! ### C66: wind shear, sea, runway state -/

def shearShown := shearGrammar.showing Windshear.str fun g t => t = g.shows
def seaShown := seaGrammar.showing SeaState.str fun g t => t = g.shows
def rwyStateShown := rwyStateGrammar.showing RunwayState.str fun g t => t = g.shows

/-- C66. `str` of wind shear, sea state and runway state groups. -/
theorem C66_runway_text :
    Reads shearShown MetarRegExp.WINDSHEAR (fun m => .ok (Windshear.new m)) ∧
    Reads seaShown MetarRegExp.SEA_STATE SeaState.new ∧
    Reads rwyStateShown MetarRegExp.RUNWAY_STATE (fun m => .ok (RunwayState.new m)) :=
  ⟨reads_showing shear_reads fun _ _ hw h => shear_shown hw h,
   reads_showing sea_reads fun _ _ hw h => sea_shown hw h,
   reads_showing rwyState_reads fun _ _ _ h => h.shown⟩

/-- C66. The same of the groups of a METAR. -/
theorem C66_report (db : Database) (clock : Clock) (code : PyStr) (a : Args) (r : Metar)
    (c : List (PyStr × Nat)) (h : Metar.new db clock code a = .ok r)
    (hc : Decodes (Metar.handlers db (clock 2) a) (metarGroups r.body) c) :
    ReadAll c 22 24 shearShown r.windshears.list ∧
    ReadAt c 25 seaShown ⟨none, none, none, none⟩ r.seaState ∧
    ReadAt c 26 rwyStateShown RunwayState.none r.runwayState :=
  ⟨readAll_showing (C35_report db clock code a r c h hc).1 fun _ _ hw h => shear_shown hw h,
   readAt_showing (C36_report db clock code a r c h hc) fun _ _ hw h => sea_shown hw h,
   readAt_showing (C37_report db clock code a r c h hc) fun _ _ _ h => h.shown⟩

example : (ShearGroup.mk false (some ⟨py!"07", some .left⟩)).shows = py!"07 left" ∧
    (ShearGroup.mk true none).shows = py!"all" ∧
    (SeaGroup.mk false py!"19" (.state 52)).shows =
      py!"temperature 19.0°C, no significant wave height, moderate" ∧
    (SeaGroup.mk true py!"02" (.height py!"015")).shows =
      py!"temperature -2.0°C, significant wave height 1.5 m, no sea state" ∧
    (RwyStateGroup.mk (some ⟨py!"10", some .left⟩)
      (.state (some 50) (some 57) (some py!"35") (some py!"50"))).shows =
      py!"10 left, deposits of 35 mm of wet and water patches, contamination 51%-100% of runway, estimated surface friction 0.50" := by
  decide +kernel
/-- Finding: a sea at zero degrees has no temperature in the text. -/
theorem C66_zero : (metarOk sampleClock py!"METAR SBGR 071200Z 9999 W00/S3").map
    (fun r => (r.seaState.str, r.seaState.temperature)) =
      some (py!"no temperature, no significant wave height, slight", some (whole 0)) := by
  decide +kernel

end Verif.Props
