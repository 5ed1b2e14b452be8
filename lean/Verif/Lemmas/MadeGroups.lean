import Verif.Lemmas.Made

/-
What the dictionaries of the groups are made of.
-/

namespace Verif
open Spec

variable {P : Nat → Prop}

/-- The keys of a literal dictionary. -/
syntax "entries " "[" term,* "]" " for " term : term
macro_rules
  | `(entries [] for $_) => `(Entries.nil)
  | `(entries [$t] for $h) => `(Entries.cons (Ascii.lit $h rfl) $t Entries.nil)
  | `(entries [$t, $ts,*] for $h) => `(Entries.cons (Ascii.lit $h rfl) $t (entries [$ts,*] for $h))

theorem made_code (hP : Ascii P) {o : Option PyStr} (h : TextOf P o) : Entries P (groupDict o) :=
  entries [made_text h] for hP

theorem made_distance (hP : Ascii P) {v : Option F64} (h : IsDouble v) : Made P (distanceDict v) :=
  (entries [.str (hP.lit rfl), made_number h] for hP).made

theorem made_pressure (hP : Ascii P) {v : Option F64} (h : IsDouble v) : Entries P (pressureDict v) :=
  entries [.str (hP.lit rfl), made_number h] for hP

theorem made_temperature (hP : Ascii P) {v : Option F64} (h : IsDouble v) : Entries P (temperatureDict v) :=
  entries [.str (hP.lit rfl), made_number h] for hP

theorem made_speed (hP : Ascii P) {v : Option F64} (h : IsDouble v) : Made P (speedDict v) :=
  (entries [.str (hP.lit rfl), made_number h] for hP).made

theorem cardinalGo_mem {v : F64} {l : List (PyStr × Rat × Rat)} {s : PyStr} (h : cardinalGo v l = some s) :
    ∃ x ∈ l, x.1 = s := by
  induction l with
  | nil => cases h
  | cons x l ih =>
    obtain ⟨k, a, b⟩ := x
    unfold cardinalGo at h
    split at h
    · cases h; exact ⟨(s, a, b), by simp, rfl⟩
    · obtain ⟨y, h1, h2⟩ := ih h
      exact ⟨y, List.mem_cons_of_mem _ h1, h2⟩

theorem text_cardinal (hP : Ascii P) (d : Direction) : TextOf P d.cardinal := by
  intro s h
  unfold Direction.cardinal at h
  split at h
  · cases h
  · split at h
    · cases h; exact hP.lit rfl
    · obtain ⟨x, h1, rfl⟩ := cardinalGo_mem h
      have : compassDirs.all (fun x => x.1.all (· < 128)) = true := rfl
      exact hP.lit (List.all_eq_true.1 this _ h1)

theorem made_direction (hP : Ascii P) {d : Direction} (h : IsDouble d.value) : Made P d.dict :=
  (entries [made_text (text_cardinal hP d), .bool _, .str (hP.lit rfl), made_number h] for hP).made

/-! ### METAR groups -/

theorem made_wind_none (hP : Ascii P) : Made P MetarWind.none.dict :=
  (Entries.update (Entries.update (entries [made_direction hP .none, made_speed hP .none] for hP)
    (entries [made_speed hP .none] for hP)) (made_code hP .none)).made

theorem made_wind (hP : Ascii P) {m : Match} (hs : ∀ c ∈ m.string, P c) {w : MetarWind} (h : MetarWind.new m = .ok w) :
    Made P w.dict := by
  unfold MetarWind.new at h
  obtain ⟨d, hd, h⟩ := bind_ok.1 h
  obtain ⟨s, hsp, h⟩ := bind_ok.1 h
  obtain ⟨g, hg, h⟩ := bind_ok.1 h
  cases pure_ok.1 h
  exact (Entries.update (Entries.update (entries [made_direction hP (direction_double hd),
    made_speed hP (speed_double hsp)] for hP)
    (entries [made_speed hP (speed_double hg)] for hP)) (made_code hP (text_code hP hs))).made

theorem made_variation_none (hP : Ascii P) : Made P WindVariation.none.dict :=
  (Entries.update (entries [made_direction hP .none, made_direction hP .none] for hP) (made_code hP .none)).made

theorem made_variation (hP : Ascii P) {m : Match} (hs : ∀ c ∈ m.string, P c) {w : WindVariation}
    (h : WindVariation.new m = .ok w) : Made P w.dict := by
  unfold WindVariation.new at h
  obtain ⟨a, ha, h⟩ := bind_ok.1 h
  obtain ⟨b, hb, h⟩ := bind_ok.1 h
  cases pure_ok.1 h
  exact (Entries.update (entries [made_direction hP (direction_double ha), made_direction hP (direction_double hb)] for hP)
    (made_code hP (text_code hP hs))).made

theorem made_min (hP : Ascii P) {v : Visibility} (h1 : TextOf P v.code) (h2 : IsDouble v.vis)
    (h3 : IsDouble v.direction.value) : Entries P v.dictMin :=
  Entries.update (entries [made_direction hP h3] for hP)
    (Entries.update (entries [made_distance hP h2] for hP) (made_code hP h1))

theorem made_prev (hP : Ascii P) {v : Visibility} (h1 : TextOf P v.code) (h2 : IsDouble v.vis)
    (h3 : IsDouble v.direction.value) : Made P v.dictPrev :=
  (Entries.update (made_min hP h1 h2 h3) (entries [.bool _] for hP)).made

theorem seaMiles_double {a b : Option PyStr} {v : Option F64} (h : fromSeaMiles a b = .ok v) : IsDouble v := by
  unfold fromSeaMiles at h
  obtain ⟨x, -, h⟩ := bind_ok.1 h
  obtain ⟨y, -, h⟩ := bind_ok.1 h
  cases pure_ok.1 h
  exact distance_double _

theorem prevailingSize_double {a b c d : Option PyStr} {v : Option F64} (h : prevailingSize a b c d = .ok v) :
    IsDouble v := by
  have hv : IsDouble (if strTruthy a = true ∨ d = some py!"M" then distance a else distance none) := by
    split <;> exact distance_double _
  unfold prevailingSize at h
  simp only at h
  split at h
  · split at h
    · exact seaMiles_double h
    · split at h
      · obtain ⟨n, -, h⟩ := bind_ok.1 h
        cases pure_ok.1 h
        exact distance_double _
      · cases pure_ok.1 h
        exact hv
  · cases pure_ok.1 h
    exact hv

theorem visDirection_double {o : Option PyStr} {d : Direction} (h : visDirection o = .ok d) : IsDouble d.value := by
  unfold visDirection at h
  split at h
  · unfold Direction.fromCardinal at h
    split at h
    · exact direction_double h
    · split at h
      · exact direction_double h
      · cases h
  · exact direction_double h

theorem made_prevailing (hP : Ascii P) {m : Match} (hs : ∀ c ∈ m.string, P c) {v : Visibility}
    (h : prevailing m = .ok v) : Made P v.dictPrev := by
  unfold prevailing at h
  obtain ⟨a, ha, h⟩ := bind_ok.1 h
  obtain ⟨d, hd, h⟩ := bind_ok.1 h
  split at h
  · cases pure_ok.1 h
    exact made_prev hP (text_code hP hs) (distance_double (some py!"9999")) (visDirection_double hd)
  · cases pure_ok.1 h
    exact made_prev hP (text_code hP hs) (prevailingSize_double ha) (visDirection_double hd)

theorem made_minimum (hP : Ascii P) {m : Match} (hs : ∀ c ∈ m.string, P c) {v : Visibility}
    (h : minimumVisibility m = .ok v) : Entries P v.dictMin := by
  unfold minimumVisibility at h
  obtain ⟨d, hd, h⟩ := bind_ok.1 h
  cases pure_ok.1 h
  refine made_min hP (text_code hP hs) ?_ (visDirection_double hd)
  simp only
  split <;> exact distance_double _

theorem text_runway (hP : Ascii P) {o : Option PyStr} (h : TextOf P o) : TextOf P (setRunwayName o) := by
  cases o with
  | none => exact .none
  | some s =>
    unfold setRunwayName
    simp only
    split
    · next hl =>
      refine .some (text_of_not_mem hP (h s rfl) fun x hx hm => ?_)
      refine not_mem_replace ?_ hm ?_
      · intro he
        have := congrArg List.length he
        simp only [List.length_drop, List.length_nil] at this
        omega
      · intro hm'
        rcases List.mem_cons.1 hm' with h' | h'
        · omega
        · have := text_fmt (P := (· < 128)) (fun c hc => hc)
            (Ascii.table (P := (· < 128)) (fun c hc => hc) (t := rwyNames) rfl (some (s.drop 2))) x h'
          omega
    · split
      · exact .some (hP.lit rfl)
      · split
        · exact .some (hP.lit rfl)
        · exact h

theorem setRange_double {a b : Option PyStr} {v : Option F64} (h : setRange a b = .ok v) : IsDouble v := by
  unfold setRange at h
  split at h
  · cases h; exact distance_double _
  · split at h
    · obtain ⟨x, -, h⟩ := bind_ok.1 h
      cases pure_ok.1 h
      exact distance_double _
    · cases h; exact distance_double _

theorem made_range (hP : Ascii P) {m : Match} (hs : ∀ c ∈ m.string, P c) {r : RunwayRange}
    (h : RunwayRange.new m = .ok r) : Made P r.dict := by
  unfold RunwayRange.new at h
  obtain ⟨a, ha, h⟩ := bind_ok.1 h
  obtain ⟨b, hb, h⟩ := bind_ok.1 h
  cases pure_ok.1 h
  exact (Entries.update (entries [made_text (text_runway hP (text_group hs _)), made_text (hP.table rfl _),
    made_distance hP (setRange_double ha), made_text (hP.table rfl _), made_distance hP (setRange_double hb),
    made_text (hP.table rfl _)] for hP) (made_code hP (text_code hP hs))).made

theorem made_weather (hP : Ascii P) {m : Match} (hs : ∀ c ∈ m.string, P c) : Made P (Weather.new m).dict :=
  (Entries.update (entries [made_text (hP.table rfl _), made_text (hP.table rfl _), made_text (hP.table rfl _),
    made_text (hP.table rfl _), made_text (hP.table rfl _)] for hP) (made_code hP (text_code hP hs))).made

theorem made_cloudOf (hP : Ascii P) {x : Cloud} (hc : TextOf P x.code) (h1 : TextOf P x.cover) (h2 : TextOf P x.oktas)
    (h3 : IsDouble x.height) (h4 : TextOf P x.type) : Made P x.dict :=
  (Entries.update (entries [made_text h1, made_text h2, .str (hP.lit (s := py!"meters") rfl), made_number h3,
    made_text h4] for hP) (made_code hP hc)).made

theorem made_cloud (hP : Ascii P) {m : Match} (hs : ∀ c ∈ m.string, P c) {x : Cloud}
    (h : Cloud.fromMetar m = .ok x) : Made P x.dict := by
  obtain ⟨a, rfl⟩ : ∃ a, x = ⟨groupCode (some m.string), dget skyCover ((m.group .cover).getD []),
      some (setOktas ((m.group .cover).getD [])), dgetO cloudTypes (m.group .type), distance (some a)⟩ := by
    unfold Cloud.fromMetar at h
    simp only at h
    split at h
    · exact ⟨_, (pure_ok.1 h).symm⟩
    · split at h
      · exact ⟨_, (pure_ok.1 h).symm⟩
      · obtain ⟨y, -, h⟩ := bind_ok.1 h
        exact ⟨_, (pure_ok.1 h).symm⟩
  have oktas : ∀ s, ∀ c ∈ setOktas s, P c := by
    intro s
    unfold setOktas
    repeat' split
    all_goals exact hP.lit rfl
  exact made_cloudOf hP (text_code hP hs) (hP.table (t := skyCover) rfl (some _)) (.some (oktas _))
    (distance_double (some a)) (hP.table (t := cloudTypes) rfl _)

theorem made_temperatures_none (hP : Ascii P) : Made P Temperatures.none.dict :=
  (Entries.update (entries [(made_temperature hP .none).made, (made_temperature hP .none).made] for hP)
    (made_code hP .none)).made

theorem setTemperature_double {a b : Option PyStr} {v : Option F64} (h : setTemperature a b = .ok v) : IsDouble v := by
  unfold setTemperature at h
  split at h <;> exact temperature_double h

theorem made_temperatures (hP : Ascii P) {m : Match} (hs : ∀ c ∈ m.string, P c) {t : Temperatures}
    (h : Temperatures.new m = .ok t) : Made P t.dict := by
  unfold Temperatures.new at h
  obtain ⟨a, ha, h⟩ := bind_ok.1 h
  obtain ⟨b, hb, h⟩ := bind_ok.1 h
  cases pure_ok.1 h
  exact (Entries.update (entries [(made_temperature hP (setTemperature_double ha)).made,
    (made_temperature hP (setTemperature_double hb)).made] for hP) (made_code hP (text_code hP hs))).made

theorem made_metarPressure_none (hP : Ascii P) : Made P MetarPressure.none.dict := (made_pressure hP .none).made

theorem made_metarPressure (hP : Ascii P) {m : Match} {p : MetarPressure} (h : MetarPressure.new m = .ok p) :
    Made P p.dict := by
  obtain ⟨a, rfl⟩ : ∃ a, p = ⟨groupCode (some m.string), pressure a⟩ := by
    unfold MetarPressure.new at h
    simp only at h
    split at h
    · exact ⟨_, (pure_ok.1 h).symm⟩
    · obtain ⟨y, -, h⟩ := bind_ok.1 h
      exact ⟨_, (pure_ok.1 h).symm⟩
  exact (made_pressure hP (pressure_double _)).made

theorem made_recent_none (hP : Ascii P) : Made P RecentWeather.none.dict :=
  (Entries.update (entries [.none, .none, .none, .none] for hP) (made_code hP .none)).made

theorem made_recent (hP : Ascii P) {m : Match} (hs : ∀ c ∈ m.string, P c) : Made P (RecentWeather.new m).dict :=
  (Entries.update (entries [made_text (hP.table rfl _), made_text (hP.table rfl _), made_text (hP.table rfl _),
    made_text (hP.table rfl _)] for hP) (made_code hP (text_code hP hs))).made

theorem made_shear (hP : Ascii P) {m : Match} (hs : ∀ c ∈ m.string, P c) : Made P (Windshear.new m).dict := by
  refine (Entries.update (entries [.bool _, made_text ?_] for hP)
    (made_code hP (text_code hP (text_replace hP (by decide) hs rfl)))).made
  have hg := text_group hs .name
  show TextOf P (match m.group .name with
    | none => none
    | some n => if n.length = 2 then some n else if n.length = 3 then setRunwayName (some n) else none)
  split
  · exact .none
  · next n hn =>
    split
    · exact hn ▸ hg
    · split
      · exact text_runway hP (hn ▸ hg)
      · exact .none

theorem made_sea_none (hP : Ascii P) : Made P SeaState.none.dict :=
  (Entries.update (entries [.none, (made_temperature hP .none).made, made_distance hP .none] for hP)
    (made_code hP .none)).made

theorem made_sea (hP : Ascii P) {m : Match} (hs : ∀ c ∈ m.string, P c) {s : SeaState}
    (h : SeaState.new m = .ok s) : Made P s.dict := by
  unfold SeaState.new at h
  obtain ⟨a, ha, h⟩ := bind_ok.1 h
  cases pure_ok.1 h
  have ht : IsDouble a := by
    unfold seaTemperature at ha
    split at ha <;> exact temperature_double ha
  refine (Entries.update (entries [made_text (hP.table rfl _), (made_temperature hP ht).made, made_distance hP ?_] for hP)
    (made_code hP (text_code hP hs))).made
  simp only
  split <;> exact distance_double _

theorem made_runwayState_none (hP : Ascii P) : Made P RunwayState.none.dict :=
  (Entries.update (entries [.none, .none, .none, .none, .none, .bool _, .none] for hP) (made_code hP .none)).made

theorem made_runwayState (hP : Ascii P) {m : Match} (hs : ∀ c ∈ m.string, P c) : Made P (RunwayState.new m).dict := by
  have hn : TextOf P (setRunwayName (m.group .name)) := text_runway hP (text_group hs _)
  refine (Entries.update (entries [made_text hn, made_text (hP.table rfl _), made_text (hP.table rfl _),
    made_text ?_, made_text ?_, .bool _, made_text ?_] for hP) (made_code hP (text_code hP hs))).made
  · show TextOf P (setDepositsDepth _)
    unfold setDepositsDepth
    split
    · exact .none
    · split
      · split
        · exact .some (text_append (hP.digits (natStr_ascii _)) (hP.lit rfl))
        · exact hP.table (t := depositDepth) rfl (some _)
      · exact hP.table (t := depositDepth) rfl (some _)
  · show TextOf P (setSurfaceFriction _)
    unfold setSurfaceFriction
    split
    · exact .none
    · split
      · split
        · exact .some (text_append (hP.lit rfl) (hP.digits (padNat_ascii _ _)))
        · exact hP.table (t := surfaceFriction) rfl (some _)
      · exact hP.table (t := surfaceFriction) rfl (some _)
  · unfold RunwayState.clrd
    split
    · exact .none
    · split
      · exact .some (hP.lit rfl)
      · split
        · exact .some (text_append (hP.lit rfl) (text_fmt hP hn))
        · exact .some (text_append (hP.lit rfl) (text_fmt hP hn))

/-! ### Groups of all reports -/

theorem text_dt (hP : Ascii P) (t : DT) : ∀ c ∈ t.str, P c := by
  unfold DT.str
  have := fun w n => hP.digits (padNat_ascii w n)
  exact text_append (text_append (text_append (text_append (text_append (text_append (text_append (text_append (text_append
    (this _ _) (hP.lit rfl)) (this _ _)) (hP.lit rfl)) (this _ _)) (hP.lit rfl)) (this _ _)) (hP.lit rfl)) (this _ _))
    (hP.lit rfl)

theorem made_time (hP : Ascii P) {t : Time} (h : TextOf P t.code) : Entries P t.dict :=
  Entries.update (entries [.str (text_dt hP _)] for hP) (made_code hP h)

theorem time_code {now : Now} {code a b c : Option PyStr} {y z : Option Int} {t : Time}
    (h : Time.new now code a b c y z = .ok t) : t.code = groupCode code := by
  unfold Time.new at h
  simp only at h
  split at h
  · cases h
  · cases h; rfl

theorem made_fromMetar (hP : Ascii P) {now : Now} {m : Match} (hs : ∀ c ∈ m.string, P c) {y z : Option Int} {t : Time}
    (h : Time.fromMetar now (some m) y z = .ok t) : Entries P t.dict :=
  made_time hP (by rw [time_code h]; exact text_code hP hs)

theorem made_type (hP : Ascii P) {s : PyStr} (hs : ∀ c ∈ s, P c) : Made P (ReportType.new s).dict :=
  (Entries.update (entries [made_text (hP.table (t := typesTable) rfl (some _))] for hP)
    (made_code hP (text_code hP hs))).made

theorem made_modifier (hP : Ascii P) {o : Option PyStr} (hs : TextOf P o) : Entries P (Modifier.new o).dict := by
  refine Entries.update (entries [made_text (hP.table rfl _)] for hP) (made_code hP ?_)
  cases o with
  | none => exact .none
  | some s => exact text_code hP (hs s rfl)

theorem made_station_none (hP : Ascii P) (db : Database) : Made P (Station.dict db ⟨none, none⟩) :=
  (Entries.update (entries [.none, .none, .none, .none, .none, .none, .none, .none] for hP) (made_code hP .none)).made

theorem dget_mem {t : List (PyStr × PyStr)} {k s : PyStr} (h : dget t k = some s) : ∃ x ∈ t, x.2 = s :=
  ⟨(k, s), lookup_mem h, rfl⟩

theorem made_station (hP : Ascii P) {db : Database} (hdb : ∀ c, InTables db c → P c) {s : PyStr}
    (hs : ∀ c ∈ s, P c) {x : Station} (h : Station.new db (some s) py!"ICAO" = .ok x) : Made P (x.dict db) := by
  unfold Station.new at h
  simp only [stationData, codeColumn, if_true] at h
  cases h
  have row : ∀ f : StationRow → PyStr, (∀ r c, r ∈ db.stations → c ∈ f r → P c) →
      TextOf P ((db.stations.find? fun r => decide (s = r.icao)).map f) := by
    intro f hf t ht c hc
    obtain ⟨r, hr, rfl⟩ := Option.map_eq_some_iff.1 ht
    exact hf r c (List.mem_of_find?_eq_some hr) hc
  refine (Entries.update (entries [made_text (row _ ?_), made_text (row _ ?_), made_text (row _ ?_), made_text (row _ ?_),
    made_text (row _ ?_), made_text (row _ ?_), made_text (row _ ?_), made_text ?_] for hP)
    (made_code hP (text_code hP hs))).made
  · exact fun r c h1 h2 => hdb c (.inl ⟨r, h1, by simp [h2]⟩)
  · exact fun r c h1 h2 => hdb c (.inl ⟨r, h1, by simp [h2]⟩)
  · exact fun r c h1 h2 => hdb c (.inl ⟨r, h1, by simp [h2]⟩)
  · exact fun r c h1 h2 => hdb c (.inl ⟨r, h1, by simp [h2]⟩)
  · exact fun r c h1 h2 => hdb c (.inl ⟨r, h1, by simp [h2]⟩)
  · exact fun r c h1 h2 => hdb c (.inl ⟨r, h1, by simp [h2]⟩)
  · exact fun r c h1 h2 => hdb c (.inl ⟨r, h1, by simp [h2]⟩)
  · intro t ht c hc
    unfold Station.country dgetO at ht
    split at ht
    · cases ht
    · obtain ⟨y, h1, rfl⟩ := dget_mem ht
      exact hdb c (.inr ⟨y, h1, hc⟩)

/-! ### TAF groups -/

theorem made_valid (hP : Ascii P) {o : Option Match} (hs : ∀ m, o = some m → ∀ c ∈ m.string, P c) {t : DT} {v : Valid}
    (h : Valid.fromTaf o t = .ok v) : Made P v.dict := by
  have key : ∀ {code : Option PyStr} {a b : DT}, TextOf P code → Made P (Valid.dict ⟨code, Time.ofDT a, Time.ofDT b⟩) :=
    fun hc => (Entries.update (entries [(made_time hP .none).made, (made_time hP .none).made] for hP) (made_code hP hc)).made
  unfold Valid.fromTaf at h
  obtain ⟨t1, -, h⟩ := bind_ok.1 h
  cases o with
  | none =>
    simp only at h
    obtain ⟨t2, -, h⟩ := bind_ok.1 h
    obtain ⟨t3, -, h⟩ := bind_ok.1 h
    cases pure_ok.1 h
    exact key .none
  | some m =>
    simp only at h
    iterate 6 obtain ⟨_, -, h⟩ := bind_ok.1 h
    obtain ⟨f, u, rfl⟩ : ∃ f u, v = ⟨groupCode (some m.string), Time.ofDT f, Time.ofDT u⟩ := by
      split at h
      · obtain ⟨_, -, h⟩ := bind_ok.1 h
        obtain ⟨_, -, h⟩ := bind_ok.1 h
        obtain ⟨_, -, h⟩ := bind_ok.1 h
        exact ⟨_, _, (pure_ok.1 h).symm⟩
      · obtain ⟨_, -, h⟩ := bind_ok.1 h
        obtain ⟨_, -, h⟩ := bind_ok.1 h
        obtain ⟨_, -, h⟩ := bind_ok.1 h
        exact ⟨_, _, (pure_ok.1 h).symm⟩
    exact key (text_code hP (hs m rfl))

theorem made_missing (hP : Ascii P) {o : Option PyStr} (hs : TextOf P o) : Made P (Missing.new o).dict :=
  (Entries.update (entries [.bool _] for hP) (made_modifier hP hs)).made

theorem made_cancelled (hP : Ascii P) {o : Option Match} (hs : ∀ m, o = some m → ∀ c ∈ m.string, P c) :
    Made P (Cancelled.new o).dict := by
  cases o with
  | none => exact (Entries.update (entries [.bool _] for hP) (made_code hP .none)).made
  | some m => exact (Entries.update (entries [.bool _] for hP) (made_code hP (text_code hP (hs m rfl)))).made

theorem made_tafTemperature (hP : Ascii P) {m : Match} (hs : ∀ c ∈ m.string, P c) {t : DT} {x : TafTemperature}
    (h : TafTemperature.new m t = .ok x) : Made P x.dict := by
  unfold TafTemperature.new at h
  obtain ⟨_, -, h⟩ := bind_ok.1 h
  obtain ⟨v, hv, h⟩ := bind_ok.1 h
  obtain ⟨_, -, h⟩ := bind_ok.1 h
  obtain ⟨_, -, h⟩ := bind_ok.1 h
  obtain ⟨_, -, h⟩ := bind_ok.1 h
  obtain ⟨_, -, h⟩ := bind_ok.1 h
  cases pure_ok.1 h
  have hv : IsDouble v := by
    unfold tafTemperature at hv
    split at hv <;> exact temperature_double hv
  exact (Entries.update (Entries.update (made_temperature hP hv) (made_code hP (text_code hP hs))) (made_time hP .none)).made

end Verif
