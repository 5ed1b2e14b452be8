import Verif.Props.RecordText
import Verif.Props.TafRoundTrip

/-
C69: the text shown of a TAF that was written from a record.
-/

namespace Verif.Props
open Spec MetarRegExp

/-! ### Changes -/

theorem period_str (v : Valid) : v.str = periodText v.from_.time v.until_.time := by
  simp [Valid.str, periodText, Time.str, instant_str]

/-- The translation of an opening. -/
theorem kind_translation {k : ChangeKind} (hk : ∀ g, k ≠ .fm g) {v : Valid} {m : Match}
    (hm : TafRegExp.CHANGE_INDICATOR.match k.group = some m) {i : TafIndicator}
    (hi : TafIndicator.new (some m) v = .ok i) : i.translation = some k.means := by
  have hs := RE.match_string hm
  have lit : startsWith k.group py!"FM" = false →
      changeIndicator m = .ok (groupCode (some m.string), some k.means) → i.translation = some k.means := by
    intro h1 h2
    unfold TafIndicator.new at hi
    simp only at hi
    rw [if_neg (by rw [hs, h1]; simp), h2, ok_bind] at hi
    rw [← Except.ok.inj hi]
  cases k with
  | tempo => exact lit (by decide) (by unfold changeIndicator; rw [hs]; rfl)
  | becmg => exact lit (by decide) (by unfold changeIndicator; rw [hs]; rfl)
  | prob f t => cases f <;> cases t <;> exact lit (by decide) (by unfold changeIndicator; rw [hs]; rfl)
  | fm g => exact absurd rfl (hk g)

theorem fm_translation {g : FmGroup} {v : Valid} {m : Match}
    (hm : TafRegExp.CHANGE_INDICATOR.match (ChangeKind.fm g).group = some m) {i : TafIndicator}
    (hi : TafIndicator.new (some m) v = .ok i) : i.translation = some i.valid.str := by
  have hs := RE.match_string hm
  have : (ChangeKind.fm g).group = g.text := by
    simp [ChangeKind.group, ChangeKind.text, ChangeKind.words, join]
  unfold TafIndicator.new at hi
  simp only at hi
  rw [if_pos (by rw [hs, this]; rfl)] at hi
  simp only [bind_ok, pure_ok] at hi
  obtain ⟨_, -, _, -, _, -, _, -, _, -, _, -, rfl⟩ := hi
  rfl

theorem set_translation {k : ChangeKind} (hk : ∀ g, k ≠ .fm g) {i i' : TafIndicator} {m : Match} {t : Time}
    (hi : i.code = some k.text) (hs : i.setValidPeriod m t = .ok i') :
    i'.translation = some (fmtO i.translation ++ py!" " ++ i'.valid.str) := by
  unfold TafIndicator.setValidPeriod at hs
  simp only [bind_ok] at hs
  obtain ⟨x, -, hs⟩ := hs
  rw [hi] at hs
  simp only at hs
  rw [not_fm_text hk, if_neg (by simp)] at hs
  rw [← Except.ok.inj hs]

theorem translation_text {s : PyStr} (h : s ≠ []) : translationText (some s) = s := by
  unfold translationText strTruthy
  cases s with
  | nil => exact absurd rfl h
  | cons => rfl

/-- The text of a change. -/
theorem change_text {c : TafChange} (h : c.WF) {v : Valid} (hv : v.from_.time.valid = true)
    (hy : v.from_.time.year < 9999) {x : ChangeForecasted} (hx : ChangeForecasted.new (changeCode c) v = .ok x) :
    c.Shows v.from_.time v.until_.time x.indicator.str := by
  have hcode : replace (changeCode c) py!"_" py!" " = join [32] c.words := by
    rw [← shown_eq]; exact change_shown h
  have htext : splitC 32 (ChangeForecasted.text (changeCode c)) = changeGroupsOf c := by
    unfold ChangeForecasted.text
    rw [hcode]
    exact change_groups h
  obtain ⟨asg, p1, e1, e2, e3, e4, -, e6, -⟩ := ChangeForecasted.new_reading hx
  obtain ⟨hd, -⟩ := change_decodes h htext
  have hcons : consumed (splitC 32 (ChangeForecasted.text (changeCode c))) asg = changePlacesOf c := by
    rw [(decodes_iff _ _ _).1 hd]
    exact (decodes_iff _ _ _).1 ⟨asg, e1, e2, rfl⟩
  rw [hcons] at e3 e4
  have hT := change_taken h
  obtain ⟨t0, f1, f2⟩ := ChangeForecasted.indicator_reading e3 e4
  have e9 : x.indicator = p1.indicator := by rw [e6]
  rw [e9]
  unfold TafIndicator.str
  rcases f1 with ⟨g, m, hg, hm, hi⟩ | ⟨hg, -⟩
  · rw [mem_taken, hT.indicator, List.mem_singleton] at hg
    subst hg
    obtain ⟨i, q1, q2, q3⟩ := kind_new (fun g hg => (h.fm g hg).1) hv hy hm
    have := Except.ok.inj (q1.symm.trans hi)
    subst this
    rcases f2 with ⟨g, m', hg, hm', hi'⟩ | ⟨hg, hi'⟩
    · rw [mem_taken, hT.valid, List.mem_map] at hg
      obtain ⟨w, hw, rfl⟩ := hg
      rw [Option.mem_toList] at hw
      have hno : ∀ g, c.kind ≠ .fm g := by
        intro g hg
        have := (h.fm g hg).2
        rw [hw] at this
        cases this
      obtain ⟨i', r1, r2, r3⟩ := setValidPeriod_new h hw hv hy hm' q2
      have := Except.ok.inj (r1.symm.trans hi')
      subst this
      rw [set_translation hno q2 r1, kind_translation hno hm q1, translation_text (by simp), period_str]
      unfold ChangeSays at r3
      unfold TafChange.Shows
      rw [hw] at r3 ⊢
      cases hk : c.kind with
      | fm g => exact absurd hk (hno g)
      | tempo => exact ⟨_, _, r3.1, r3.2, rfl⟩
      | becmg => exact ⟨_, _, r3.1, r3.2, rfl⟩
      | prob f t => exact ⟨_, _, r3.1, r3.2, rfl⟩
    · have hno : c.valid = none := by
        cases hc : c.valid with
        | none => rfl
        | some w => exact absurd (mem_taken.2 (by rw [hT.valid, hc]; simp)) (hg w.text)
      rw [hi']
      unfold TafChange.Shows
      rw [hno]
      cases hk : c.kind with
      | fm g =>
        rw [hk] at q3 hm
        rw [fm_translation hm q1, translation_text (by simp [Valid.str]), period_str, q3.2]
        exact ⟨_, q3.1, rfl⟩
      | tempo =>
        rw [kind_translation (by simp [hk]) hm q1, hk]
        rfl
      | becmg =>
        rw [kind_translation (by simp [hk]) hm q1, hk]
        rfl
      | prob f t =>
        rw [kind_translation (by simp [hk]) hm q1, hk]
        cases f <;> cases t <;> rfl
  · exact absurd (mem_taken.2 (by rw [hT.indicator]; simp)) (hg c.kind.group)

theorem changes_text {v : Valid} (hv : v.from_.time.valid = true) (hy : v.from_.time.year < 9999)
    {cs : List TafChange} (h : ∀ c ∈ cs, c.WF) {xs : List ChangeForecasted}
    (hx : Each (fun t x => ChangeForecasted.new t v = .ok x) (cs.map changeCode) xs) :
    Each (TafChange.Shows v.from_.time v.until_.time) cs (xs.map fun x => x.indicator.str) := by
  induction cs generalizing xs with
  | nil => cases hx; exact .nil
  | cons c cs ih =>
    cases hx with
    | cons h1 h2 =>
      exact .cons (change_text (h c (by simp)) hv hy h1) (ih (fun d hd => h d (List.mem_cons_of_mem _ hd)) h2)

/-! ### The body -/

theorem tafTemp_shown {w : TafTempGroup} {t : DT} {x : TafTemperature} (h : w.Says t x) : w.Shows t x.str := by
  obtain ⟨h1, h2⟩ := h
  refine ⟨_, h2, ?_⟩
  unfold TafTemperature.str
  rw [h1, if_neg (by simp), temperatureStr, numStrUnit_signed]
  rfl

theorem temps_text {t : DT} (ht : t.valid = true) {ws : List TafTempGroup} (h : ∀ w ∈ ws, w.WF)
    {ts : List TafTemperature}
    (hts : Each (fun g x => ∃ m, TafRegExp.TEMPERATURE.match g = some m ∧ TafTemperature.new m t = .ok x)
      (ws.map TafTempGroup.text) ts) : Each (TafTempGroup.Shows t) ws (ts.map TafTemperature.str) := by
  induction ws generalizing ts with
  | nil => cases hts; exact .nil
  | cons w ws ih =>
    cases hts with
    | cons h1 h2 =>
      refine .cons ?_ (ih (fun d hd => h d (List.mem_cons_of_mem _ hd)) h2)
      obtain ⟨m, hm, hx⟩ := h1
      obtain ⟨m', k1, k2⟩ := tafTemp_match w (h w (by simp))
      rw [hm] at k1
      cases k1
      obtain ⟨-, j2, -⟩ := (tafTemp_new (h w (by simp)) k2.2 ht).1 (_, _) (by unfold tafTagged; rw [hx]; rfl)
      exact tafTemp_shown j2

/-- C69. Parsing the text of a TAF record, in any layout, gives a report whose text is one line for each
group of the record, in the order of the code and as the group states, and then for each change its
meaning and period, followed by an empty line; white space is removed at the ends. -/
theorem C69_text (db : Database) (clock : Clock) (a : Args) (w : TafRecord) (y mo : Nat) (hs : Sane clock)
    (hy : a.year.getD (clock 1).year = (y : Int)) (hmo : a.month.getD (clock 1).month = (mo : Int))
    (hy1 : 1000 ≤ y) (hy2 : y < 9998) (hw : w.WF) (ht : IsTime ⟨y, mo, w.day, w.hour, w.minute⟩) (code : PyStr)
    (hcode : normalizeCode code = join [32] w.words) :
    ∃ r ls, Taf.new db clock code a = .ok r ∧ w.Shows db ⟨y, mo, w.day, w.hour, w.minute⟩ ls ∧
      r.str = strip (unlines ls) := by
  have hdom : (1 ≤ w.day ∧ w.day ≤ 31) ∧ w.hour ≤ 23 ∧ w.minute ≤ 59 :=
    ⟨⟨ht.day.1, isTime_day ht⟩, ht.hour, ht.minute⟩
  have htv := (isTime_iff _).1 ht
  obtain ⟨r, hr, hsaid, -⟩ := taf_code db clock a w y mo hs hy hmo hy1 hy2 hw ht code hcode
  obtain ⟨-, -, hsec⟩ := taf_sections hw hdom
  rw [← hcode] at hsec
  obtain ⟨-, hb, hcs⟩ := Taf.new_sections hr
  rw [hsec] at hb hcs
  have hd : Decodes (Taf.handlers db (clock 1) a) (bodyGroups r.body) (tafPlacesOf w) := by
    rw [hb]
    exact (taf_decodes (text := sanitizeVisibility _) hw hdom (taf_groups hw hdom)).1
  have hT := taf_taken hw
  obtain ⟨_, _, -, -, -, hR, -⟩ := Taf.new_decodes hr hd
  obtain ⟨ts, cs, t1, t2, t3⟩ := C56_taf_text hr hd
  refine ⟨r, _, hr, ?_, t3⟩
  have hchanges : Each (TafChange.Shows r.valid.from_.time r.valid.until_.time) w.changes
      (cs.map fun x => x.indicator.str) := by
    have hne : ∀ c ∈ w.changes.map changeCode, c ≠ [] := by
      intro c hc
      obtain ⟨d, hd, rfl⟩ := List.mem_map.1 hc
      exact changeCode_ne d
    rw [hcs, List.filter_eq_self.2 fun c hc => by simpa using hne c hc] at t2
    by_cases hno : w.changes = []
    · rw [hno] at t2 ⊢
      cases t2
      exact .nil
    · cases hv : w.valid with
      | none => exact absurd hv (hw.period hno)
      | some g =>
        obtain ⟨s1, -, -⟩ := hsaid.valid g hv
        have hg := (hw.valid g hv).2.1.le
        obtain ⟨v1, v2, v3⟩ := takes_year htv (by omega) s1
        exact changes_text v1 (by simp only at v3; omega) hw.changes.2 t2
  have htemps : Each (TafTempGroup.Shows ⟨y, mo, w.day, w.hour, w.minute⟩) w.temps (ts.map TafTemperature.str) := by
    unfold FromGroups at t1
    rw [hT.temps, hsaid.time] at t1
    exact temps_text htv hw.temps t1
  refine ⟨r.station.str db, _, r.valid.from_.time, r.valid.until_.time, _, _, _, _, station_shown hsaid.station,
    modifier_shown hR.modifier hT.modifier (fun m hm => ?_), fun g hg => ⟨(hsaid.valid g hg).1, (hsaid.valid g hg).2.1⟩,
    line_shows hsaid.conds.wind hT.wind (fun v hv => ⟨hw.conds.wind v hv, hw.wind v hv⟩)
      fun _ _ hw h => wind_shown hw.1 h,
    line_shows hsaid.conds.vis hT.vis hw.vis fun _ _ hw h => vis_shown hw.1 h, htemps, hchanges, ?_⟩
  · rcases hw.modifier m hm with rfl | rfl <;> decide
  have e1 : r.core.weathers.list.map Weather.str = w.conds.weathers.map WeatherGroup.shows :=
    each_eq (lines_show hsaid.conds.weathers (fun _ _ => trivial) fun _ _ _ h => weather_shown h)
  have e2 : r.core.clouds.list.map Cloud.str = w.conds.clouds.map Layer.shows :=
    each_eq (lines_show hsaid.conds.clouds hw.conds.clouds.2 fun _ _ _ h => cloud_shown h)
  have e3 : line (tafPlacesOf w) 4 r.missing.mod.str = if w.missing then [py!"missing report"] else [] := by
    have hTm := hT.missing
    cases hm : w.missing with
    | false => rw [hm] at hTm; exact line_none hTm
    | true =>
      rw [hm] at hTm
      rw [line_one hTm]
      rcases hR.missing with ⟨g, m, hg, hm, hx⟩ | ⟨hg, -⟩
      · rw [mem_taken, hTm] at hg
        have : g = py!"NIL" := by simpa using hg
        rw [← Except.ok.inj hx, RE.match_string hm, this]
        rfl
      · exact absurd (mem_taken.2 (by rw [hTm]; simp)) (hg py!"NIL")
  have e4 : line (tafPlacesOf w) 6 r.cancelled.str = if w.cancelled then [py!"cancelled"] else [] := by
    have hTm := hT.cancelled
    cases hm : w.cancelled with
    | false => rw [hm] at hTm; exact line_none hTm
    | true =>
      rw [hm] at hTm
      rw [line_one hTm, Cancelled.str, hsaid.cancelled, hm]
      rfl
  have e5 : line (tafPlacesOf w) 5 r.valid.str =
      w.valid.toList.map fun _ => periodText r.valid.from_.time r.valid.until_.time := by
    have hTm := hT.valid
    cases hm : w.valid with
    | none => rw [hm] at hTm; exact line_none hTm
    | some g => rw [hm] at hTm; rw [line_one hTm, period_str]; rfl
  have e6 : r.type.str = py!"Terminal Aerodrome Forecast (TAF)" := by
    rcases hR.type with ⟨g, m, hg, hm, hx⟩ | ⟨hg, -⟩
    · rw [mem_taken, hT.type, List.mem_singleton] at hg
      rw [← Except.ok.inj hx, RE.match_string hm, hg]
      rfl
    · exact absurd (mem_taken.2 (by rw [hT.type]; simp)) (hg py!"TAF")
  have e8 : r.time.str = instantText ⟨y, mo, w.day, w.hour, w.minute⟩ := by
    show r.time.time.str = _
    rw [hsaid.time]
    rfl
  unfold tafLines
  rw [e1, e2, e3, e4, e5, e6, line_one hT.type, line_one hT.station, line_one hT.time, e8]
  simp only [List.append_assoc, List.cons_append, List.nil_append, List.map_map, Function.comp_def]

/-- The sample meets the hypotheses, and the whole text. -/
example : ∃ r ls, Taf.new sampleDb sampleClock (join [32] sampleTaf.words) {} = .ok r ∧
    sampleTaf.Shows sampleDb ⟨2024, 6, 15, 11, 30⟩ ls ∧ r.str = strip (unlines ls) :=
  C69_text sampleDb sampleClock {} sampleTaf 2024 6 sane_sample.1 rfl rfl (by decide) (by decide) sampleTaf_wf
    ⟨by decide, by decide, ⟨by decide, 30, by decide, by decide⟩, by decide, by decide⟩ _ (by decide +kernel)

example : (tafOk sampleClock (join [32] sampleTaf.words)).map Taf.str = some (join py!"\n"
    [py!"Terminal Aerodrome Forecast (TAF)", py!"amendment",
     py!"Name: None | Coordinates: None None | Elevation: None m MSL | Country: None",
     py!"2024-06-15 11:30:00", py!"from 2024-06-15 12:00:00 until 2024-06-16 18:00:00",
     py!"SW (230.0°) 15.0 kt gust of 27.0 kt", py!"2.8 km", py!"light rain",
     py!"broken at 1000.0 feet", py!"overcast at 2500.0 feet of cumulonimbus",
     py!"25.0°C at 2024-06-15 18:00:00", py!"-2.0°C at 2024-06-16 10:00:00",
     py!"temporary from 2024-06-15 12:00:00 until 2024-06-15 14:00:00", [],
     py!"from 2024-06-15 18:00:00 until 2024-06-16 18:00:00", [],
     py!"probability 30% temporary from 2024-06-15 20:00:00 until 2024-06-15 22:00:00", [],
     py!"becoming from 2024-06-16 00:00:00 until 2024-06-16 02:00:00"]) := by
  decide +kernel

end Verif.Props
