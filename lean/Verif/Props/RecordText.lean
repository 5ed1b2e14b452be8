import Verif.Spec.RecordText
import Verif.Props.TrendRoundTrip
import Verif.Props.GroupText
import Verif.Props.Lines

/-
C68: the text shown of a report that was written from a record.
-/

namespace Verif.Props
open Spec MetarRegExp

/-! ### Lines of attributes -/

theorem has_taken {c : List (PyStr × Nat)} {i : Nat} : has c i = true ↔ taken c i i ≠ [] := by
  unfold has
  rw [List.any_eq_true]
  constructor
  · rintro ⟨⟨g, j⟩, hx, hj⟩
    have : j = i := by simpa using hj
    subst this
    exact List.ne_nil_of_mem (mem_taken.1 hx)
  · intro h
    obtain ⟨g, hg⟩ := List.exists_mem_of_ne_nil _ h
    exact ⟨(g, i), mem_taken.2 hg, by simp⟩

theorem line_one {c : List (PyStr × Nat)} {i : Nat} {g s : PyStr} (h : taken c i i = [g]) : line c i s = [s] := by
  unfold line
  rw [if_pos (has_taken.2 (by rw [h]; simp))]

theorem line_none {c : List (PyStr × Nat)} {i : Nat} {s : PyStr} (h : taken c i i = []) : line c i s = [] := by
  unfold line
  rw [if_neg (fun hh => has_taken.1 hh h)]

section generic
variable {γ α : Type} {G : Grammar γ α} {str : α → PyStr} {Shows : γ → PyStr → Prop}

/-- The line of an optional group. -/
theorem line_shows {c : List (PyStr × Nat)} {i : Nat} {o : Option γ} {d x : α} (h : Held G d o x)
    (ht : taken c i i = o.toList.map G.text) (hw : ∀ w, o = some w → G.WF w)
    (hs : ∀ w x, G.WF w → G.Says w x → Shows w (str x)) : Each Shows o.toList (line c i (str x)) := by
  cases o with
  | none => rw [line_none ht]; exact .nil
  | some w => rw [line_one ht]; exact .cons (hs w x (hw w rfl) h) .nil

theorem each_eq {f : γ → PyStr} {ws : List γ} {ls : List PyStr} (h : Each (fun w t => t = f w) ws ls) :
    ls = ws.map f := by
  induction h with
  | nil => rfl
  | cons h1 _ ih => rw [h1, ih]; rfl

/-- The lines of a list of groups. -/
theorem lines_show {ws : List γ} {xs : List α} (h : Each G.Says ws xs) (hw : ∀ w ∈ ws, G.WF w)
    (hs : ∀ w x, G.WF w → G.Says w x → Shows w (str x)) : Each Shows ws (xs.map str) := by
  induction h with
  | nil => exact .nil
  | cons h1 _ ih =>
    exact .cons (hs _ _ (hw _ (by simp)) h1) (ih fun v hv => hw v (List.mem_cons_of_mem _ hv))

end generic

/-! ### Station, time, type, modifier -/

theorem instant_str (t : DT) : t.str = instantText t := rfl

theorem country_shown (db : Database) (k : PyStr) : CountryShown db k (fmtO (dget db.countries k)) := by
  unfold CountryShown dget
  induction db.countries with
  | nil => right; exact ⟨by simp, rfl⟩
  | cons x xs ih =>
    obtain ⟨k', v⟩ := x
    by_cases hk : k = k'
    · subst hk
      left
      exact ⟨[], xs, by simp [List.lookup, fmtO], by simp⟩
    · have : List.lookup k ((k', v) :: xs) = List.lookup k xs := by
        have : (k == k') = false := by simpa using hk
        simp [List.lookup, this]
      rw [this]
      rcases ih with ⟨before, after, e, h⟩ | ⟨h1, h2⟩
      · left
        refine ⟨(k', v) :: before, after, by rw [List.cons_append, ← e], fun x hx => ?_⟩
        rcases List.mem_cons.1 hx with rfl | hx
        · exact fun h => hk h.symm
        · exact h x hx
      · right
        refine ⟨fun x hx => ?_, h2⟩
        rcases List.mem_cons.1 hx with rfl | hx
        · exact fun h => hk h.symm
        · exact h1 x hx

theorem station_shown {db : Database} {g : PyStr} {s : Station} (h : StationOf db g s) :
    StationShown db g (s.str db) := by
  obtain ⟨-, ⟨before, row, after, e, h1, h2, h3⟩ | ⟨h1, h2⟩⟩ := h
  · left
    refine ⟨before, row, after, _, e, h1, h2, country_shown db row.country, ?_⟩
    simp [Station.str, Station.country, h3, dgetO, fmtO]
  · right
    refine ⟨h1, ?_⟩
    simp [Station.str, Station.country, h2, dgetO, fmtO]

theorem type_shown {c : List (PyStr × Nat)} {speci : Bool} {d x : ReportType}
    (h : FromGroup c 0 TYPE (fun m => .ok (ReportType.new m.string)) d x)
    (ht : taken c 0 0 = [if speci then py!"SPECI" else py!"METAR"]) : x.str = typeText speci := by
  rcases h with ⟨g, m, hg, hm, hx⟩ | ⟨hg, -⟩
  · rw [mem_taken, ht, List.mem_singleton] at hg
    have := Except.ok.inj hx
    rw [← this, RE.match_string hm, hg]
    cases speci <;> decide
  · exact absurd (mem_taken.2 (by rw [ht]; simp)) (hg (if speci then py!"SPECI" else py!"METAR"))

theorem modifier_shown {c : List (PyStr × Nat)} {i : Nat} {re : RE} {o : Option PyStr} {d x : Modifier}
    (h : FromGroup c i re (fun m => .ok (Modifier.new (some m.string))) d x)
    (ht : taken c i i = o.toList) (ho : ∀ m, o = some m → m ∈ modifiers) :
    Each (fun m s => (m, s) ∈ modifierWords) o.toList (line c i x.str) := by
  cases o with
  | none => rw [line_none ht]; exact .nil
  | some w =>
    rw [line_one ht]
    refine .cons ?_ .nil
    rcases h with ⟨g, m, hg, hm, hx⟩ | ⟨hg, -⟩
    · rw [mem_taken, ht] at hg
      simp only [Option.toList_some, List.mem_singleton] at hg
      have := Except.ok.inj hx
      rw [← this, RE.match_string hm, hg]
      have key : ∀ m ∈ modifiers, (m, (Modifier.new (some m)).str) ∈ modifierWords := by decide
      exact key w (ho w rfl)
    · exact absurd (mem_taken.2 (by rw [ht]; simp)) (hg w)

/-! ### The body -/

theorem body_shown {db : Database} {clock : Clock} {a : Args} {t : DT} {w : MetarRecord} (h : w.WF)
    (hdom : (1 ≤ w.day ∧ w.day ≤ 31) ∧ w.hour ≤ 23 ∧ w.minute ≤ 59) {code : PyStr} {r : Metar}
    (hr : Metar.new db clock code a = .ok r) (hb : r.body = join [32] w.words) (hsaid : SaidBy db t w r) :
    ∃ ls, w.Shows db t ls ∧ r.str = strip (unlines (ls ++ r.weatherTrends.list.map ChangePeriod.str)) := by
  have hf := (record_runs (db := db) (now := clock 2) (a := a) h hdom).fits
  have hd : Decodes (Metar.handlers db (clock 2) a) (metarGroups r.body) (placesOf w) := by
    rw [hb, record_groups h hdom, ← placesOf_groups]
    exact hf.decodes
  have hT := record_taken h
  obtain ⟨_, -, -, hR, hn⟩ := Metar.new_decodes hr hd
  obtain ⟨ps, h1, -, h3⟩ := C56_metar_text hr hd
  refine ⟨_, ?_, h3⟩
  have hpress : Each pressGrammar.Says w.pressures ps := by
    have := press_reads.ifOk.all h1 hn
    rw [ReadAll, hT.pressures] at this
    exact each_of this fun v hv => (h.pressures.2 v hv).1
  have shearWF : ∀ s ∈ w.shears.map Shear.group, s.WF := by
    intro s hs
    obtain ⟨s, hs', rfl⟩ := List.mem_map.1 hs
    have := h.shears.2 s hs'
    cases s with
    | all => intro r hr; cases hr
    | runway l w => intro r hr; cases hr; exact this
  refine ⟨r.station.str db, _, _, _, _, _, _, _, station_shown hsaid.station,
    modifier_shown hR.modifier hT.modifier h.modifier,
    line_shows hsaid.wind hT.wind h.wind fun _ _ hw h => wind_shown hw h,
    line_shows hsaid.variation hT.variation h.variation fun _ _ hw h => variation_shown hw h,
    line_shows hsaid.vis hT.vis (fun v hv => (h.vis v hv).1) fun _ _ hw h => vis_shown hw h,
    line_shows hsaid.minVis hT.minVis (fun v hv => (h.minVis v hv).1) fun _ _ hw h => vis_shown hw.1 h,
    lines_show hsaid.ranges h.ranges.2 fun _ _ hw h => range_shown hw h,
    lines_show hpress (fun v hv => (h.pressures.2 v hv).1) fun _ _ hw h => press_shown hw h, ?_⟩
  have e1 : r.core.weathers.list.map Weather.str = w.weathers.map WeatherGroup.shows :=
    each_eq (lines_show hsaid.weathers (fun _ _ => trivial) fun _ _ _ h => weather_shown h)
  have e2 : r.core.clouds.list.map Cloud.str = w.clouds.map Layer.shows :=
    each_eq (lines_show hsaid.clouds h.clouds.2 fun _ _ _ h => cloud_shown h)
  have e3 : line (placesOf w) 18 r.temperatures.str = w.temps.toList.map TempGroup.shows :=
    each_eq (line_shows hsaid.temps hT.temps h.temps fun _ _ _ h => temp_shown h)
  have e4 : line (placesOf w) 21 r.recentWeather.str = w.recent.toList.map RecentGroup.shows :=
    each_eq (line_shows hsaid.recent hT.recent h.recent fun _ _ _ h => recent_shown h)
  have e5 : r.windshears.list.map Windshear.str = w.shears.map fun s => s.group.shows := by
    have := each_eq (lines_show hsaid.shears shearWF fun _ _ hw h => shear_shown hw h)
    rw [this, List.map_map]
    rfl
  have e6 : line (placesOf w) 25 r.seaState.str = w.sea.toList.map SeaGroup.shows :=
    each_eq (line_shows hsaid.sea hT.sea h.sea fun _ _ hw h => sea_shown hw h)
  have e7 : line (placesOf w) 26 r.runwayState.str = w.state.toList.map RwyStateGroup.shows :=
    each_eq (line_shows hsaid.state hT.state h.state fun _ _ _ h => h.shown)
  have e8 : r.time.str = instantText t := by
    show r.time.time.str = _
    rw [hsaid.time]
    rfl
  unfold metarLines
  rw [e1, e2, e3, e4, e5, e6, e7, line_one hT.type, line_one hT.station, line_one hT.time, e8,
    type_shown hR.type hT.type]
  simp only [List.append_assoc, List.cons_append, List.nil_append]

/-! ### The trends -/

theorem opening_shown {t : DT} {w : TrendRecord} {p : ChangePeriod} (h : TrendSaid t w p) :
    w.OpeningShown t p.indicator.str := by
  have hm : strTruthy p.indicator.translation = true := by
    rw [h.means]; cases w.kind <;> decide
  have htr : translationText p.indicator.translation = w.kind.means := by
    unfold translationText
    rw [if_pos hm, h.means]
    rfl
  have hat := h.at_
  unfold TrendRecord.OpeningShown TrendIndicator.str
  cases hl : w.last .at_ with
  | some g =>
    rw [hl] at hat
    obtain ⟨x, hx, hc, hu⟩ := hat
    have htrue : x.truthy = true := by
      unfold Time.truthy
      rw [hc]
      simp [period_ne]
    rw [hx]
    simp only [htrue, if_true, htr]
    exact ⟨x.time, hu, rfl⟩
  | none =>
    rw [hl] at hat
    rw [show p.indicator.at_ = none from hat]
    simp only [hm, if_true, htr]
    exact ⟨p.indicator.from_.time, p.indicator.until_.time, by
      have := h.from_
      revert this
      cases w.last .from_ <;> exact id, by
      have := h.until_
      revert this
      cases w.last .until_ <;> exact id, rfl⟩

theorem trend_shown {db : Database} {clock : Clock} {code : PyStr} {a : Args} {r : Metar}
    (hr : Metar.new db clock code a = .ok r) {p : ChangePeriod} (hp : p ∈ r.weatherTrends.list) {t : DT}
    {w : TrendRecord} (h : w.WF t) (hs : TrendSaid t w p) : w.Shows t p.str := by
  have hT := trend_taken h
  have := C56_trend_text hr hp hs.code (trend_decodes h).1 (fun g hg => by
    rw [mem_taken, hT.indicator, List.mem_singleton] at hg
    rw [hg]
    cases w.kind <;> decide)
  refine ⟨_, _, _, opening_shown hs,
    line_shows hs.wind hT.wind h.conds.wind fun _ _ hw h => wind_shown hw h,
    line_shows hs.vis hT.vis (fun v hv => (h.conds.vis v hv).1) fun _ _ hw h => vis_shown hw h, ?_⟩
  have e1 : p.core.weathers.list.map Weather.str = w.conds.weathers.map WeatherGroup.shows :=
    each_eq (lines_show hs.weathers (fun _ _ => trivial) fun _ _ _ h => weather_shown h)
  have e2 : p.core.clouds.list.map Cloud.str = w.conds.clouds.map Layer.shows :=
    each_eq (lines_show hs.clouds h.conds.clouds.2 fun _ _ _ h => cloud_shown h)
  rw [this]
  unfold trendLines
  rw [e1, e2, line_one hT.indicator]

theorem trends_shown {db : Database} {clock : Clock} {code : PyStr} {a : Args} {r : Metar}
    (hr : Metar.new db clock code a = .ok r) {t : DT} {ws : List TrendRecord} {ps : List ChangePeriod}
    (hps : ∀ p ∈ ps, p ∈ r.weatherTrends.list) (h : ∀ w ∈ ws, w.WF t) (hs : Each (TrendSaid t) ws ps) :
    Each (TrendRecord.Shows t) ws (ps.map ChangePeriod.str) := by
  induction hs with
  | nil => exact .nil
  | cons h1 _ ih =>
    exact .cons (trend_shown hr (hps _ (by simp)) (h _ (by simp)) h1)
      (ih (fun p hp => hps p (List.mem_cons_of_mem _ hp)) fun v hv => h v (List.mem_cons_of_mem _ hv))

/-- C68. Parsing the text of a METAR record and its trends, in any layout, gives a report whose text is
one line for each group of the record, in the order of the code and as the group states, and then the
text of each trend; white space is removed at the ends. -/
theorem C68_text (db : Database) (clock : Clock) (a : Args) (w : MetarRecord)
    (trends : List TrendRecord) (remark : Option (PyStr × List PyStr)) (y mo : Nat) (hs : Sane clock)
    (hy : a.year.getD (clock 2).year = (y : Int)) (hmo : a.month.getD (clock 2).month = (mo : Int))
    (hy1 : 1000 ≤ y) (hy9 : y < 9999) (hw : w.WF) (ht : IsTime ⟨y, mo, w.day, w.hour, w.minute⟩)
    (htr : TrendsWF trends ⟨y, mo, w.day, w.hour, w.minute⟩)
    (hr : ∀ p ∈ remark, Part [py!"RMK"] metarWords p) (code : PyStr)
    (hcode : normalizeCode code = join [32] (metarText w.words (trends.map trendPart) remark)) :
    ∃ r ls ts, Metar.new db clock code a = .ok r ∧ w.Shows db ⟨y, mo, w.day, w.hour, w.minute⟩ ls ∧
      Each (TrendRecord.Shows ⟨y, mo, w.day, w.hour, w.minute⟩) trends ts ∧
      r.str = strip (unlines (ls ++ ts)) := by
  have hdom : (1 ≤ w.day ∧ w.day ≤ 31) ∧ w.hour ≤ 23 ∧ w.minute ≤ 59 :=
    ⟨⟨ht.day.1, isTime_day ht⟩, ht.hour, ht.minute⟩
  have hwne : w.words ≠ [] := by simp [MetarRecord.words, MetarRecord.front]
  obtain ⟨r, h1, h2, h3, -⟩ := trends_round_trip_code db clock a w trends remark y mo hs hy hmo hy1 hy9 hw ht htr hr
    code hcode
  have hb : r.body = join [32] w.words := by
    rw [(Metar.new_sections h1).1, hcode, (metarSections_text w.words (trends.map trendPart) remark hwne
      (record_words hw hdom) (by
        intro p hp
        obtain ⟨v, hv, rfl⟩ := List.mem_map.1 hp
        exact trend_part (htr.each v hv)) hr).2.1]
  obtain ⟨ls, h4, h5⟩ := body_shown hw hdom h1 hb h2
  exact ⟨r, ls, _, h1, h4, trends_shown h1 (fun _ h => h) htr.each h3, h5⟩

/-- A report with two trends: what C68 speaks of exists, and the whole text. -/
example : ∃ r ls ts, Metar.new sampleDb sampleClock (join [32] (metarText sampleRecord.words
      (sampleTrends.map trendPart) none)) {} = .ok r ∧ sampleRecord.Shows sampleDb ⟨2024, 6, 15, 12, 51⟩ ls ∧
    Each (TrendRecord.Shows ⟨2024, 6, 15, 12, 51⟩) sampleTrends ts ∧ r.str = strip (unlines (ls ++ ts)) :=
  C68_text sampleDb sampleClock {} sampleRecord sampleTrends none 2024 6 sane_sample.1 rfl rfl (by decide)
    (by decide) sampleRecord_wf ⟨by decide, by decide, ⟨by decide, 30, by decide, by decide⟩, by decide, by decide⟩
    sampleTrends_wf (by rintro _ ⟨⟩) _ (by decide +kernel)

example : (metarOk sampleClock (join [32] (metarText sampleRecord.words (sampleTrends.map trendPart) none))).map
      Metar.str =
    some (join py!"\n" [py!"Special Aerodrome Report (SPECI)",
      py!"Name: None | Coordinates: None None | Elevation: None m MSL | Country: None",
      py!"2024-06-15 12:51:00", py!"automatic report", py!"SW (230.0°) 15.0 kt gust of 27.0 kt",
      py!"from SSW (200.0°) to W (260.0°)", py!"2.8 km", py!"0.4 km to NW (315.0°)",
      py!"runway 04 right below of 182.9 m varying to 304.8 m, increasing",
      py!"heavy thunderstorm rain", py!"mist", py!"broken at 1000.0 feet of cumulonimbus",
      py!"overcast at 2500.0 feet", py!"temperature: 18.0°C | dewpoint: -2.0°C", py!"1013.0 hPa",
      py!"1013.2 hPa", py!"freezing rain", py!"all", py!"04 right",
      py!"temperature 19.0°C, no significant wave height, moderate",
      py!"contaminations have ceased to exists on all runways",
      py!"temporary from 2024-06-15 13:10:00 until 2024-06-15 14:30:00",
      py!"WSW (250.0°) 20.0 kt gust of 35.0 kt", py!"4.6 km", py!"heavy showers rain",
      py!"broken at 800.0 feet of cumulonimbus", py!"becoming at 2024-06-15 14:00:00",
      py!"Ceiling and Visibility OK"]) := by
  decide +kernel

end Verif.Props
