import Verif.Lemmas.MadeReports
import Verif.Lemmas.Foreign
import Verif.Lemmas.Plain

/-
What the texts of groups and reports are made of.
-/

namespace Verif
open Spec

variable {P : Nat → Prop}

theorem text_nil : ∀ c ∈ ([] : PyStr), P c := fun _ h => by cases h

theorem text_number (hP : Ascii P) (x : F64) : ∀ c ∈ fmt1 x, P c := by
  unfold fmt1 fmtF
  refine text_append (text_append (text_append ?_ (hP.digits (natStr_ascii _))) (hP.lit rfl))
    (hP.digits (padNat_ascii _ _))
  split
  · exact hP.lit rfl
  · exact text_nil

theorem text_num (hP : Ascii P) (v : Option F64) : ∀ c ∈ numStr v, P c := by
  cases v with
  | none => exact text_nil
  | some x => exact text_number hP x

theorem text_unit (hP : Ascii P) (v : Option F64) {u : PyStr} (hu : ∀ c ∈ u, P c) : ∀ c ∈ numStrUnit v u, P c := by
  unfold numStrUnit
  split
  · exact text_append (text_num hP v) hu
  · exact text_num hP v

theorem text_distance (hP : Ascii P) (v : Option F64) : ∀ c ∈ distanceStr v, P c := text_unit hP v (hP.lit rfl)

theorem text_temperature (hP : Ascii P) (hd : P 176) (v : Option F64) : ∀ c ∈ temperatureStr v, P c :=
  text_unit hP v (List.forall_mem_cons.2 ⟨hd, hP.lit rfl⟩)

theorem text_direction (hP : Ascii P) (hd : P 176) (d : Direction) : ∀ c ∈ d.str, P c := by
  unfold Direction.str
  split
  · exact hP.lit rfl
  · exact text_unit hP _ (List.forall_mem_cons.2 ⟨hd, text_nil⟩)

theorem text_getD {o : Option PyStr} (h : TextOf P o) : ∀ c ∈ o.getD [], P c := by
  cases o with
  | none => exact text_nil
  | some s => exact h s rfl

theorem text_squeeze (hP : Ascii P) {s : PyStr} (h : ∀ c ∈ s, P c) : ∀ c ∈ strip (spaces2RE.sub py!" " s 0), P c :=
  text_strip (text_of_not_mem hP h fun _ hx h => not_mem_sub h (not_mem_lit rfl hx))

/-- A replacement whose new text satisfies the predicate; the old text may be empty. -/
theorem text_exchange {s old new : PyStr} (hs : ∀ c ∈ s, P c) (hn : ∀ c ∈ new, P c) : ∀ c ∈ replace s old new, P c := by
  intro c hc
  by_cases ho : old = []
  · unfold replace at hc
    rw [if_pos ho] at hc
    rcases List.mem_append.1 hc with h | h
    · exact hn c h
    · obtain ⟨x, hx, h⟩ := List.mem_flatMap.1 h
      rcases List.mem_cons.1 h with rfl | h
      · exact hs _ hx
      · exact hn c h
  · by_cases h1 : c ∈ s
    · exact hs c h1
    · by_cases h2 : c ∈ new
      · exact hn c h2
      · exact absurd hc (not_mem_replace ho h1 h2)

/-! ### Groups -/

theorem shown_wind (hP : Ascii P) (hd : P 176) (w : MetarWind) : ∀ c ∈ w.str, P c := by
  unfold MetarWind.str
  refine text_append ?_ ?_
  · unfold windStr
    refine text_squeeze hP (text_append (text_append (text_append (text_append (text_getD (text_cardinal hP _))
      (hP.lit rfl)) ?_) (hP.lit rfl)) (text_unit hP _ (hP.lit rfl)))
    split
    · exact text_append (text_append (hP.lit rfl) (text_direction hP hd _)) (hP.lit rfl)
    · exact text_direction hP hd _
  · split
    · exact text_append (hP.lit rfl) (text_unit hP _ (hP.lit rfl))
    · exact text_nil

theorem shown_variation (hP : Ascii P) (hd : P 176) (w : WindVariation) : ∀ c ∈ w.str, P c := by
  unfold WindVariation.str
  split
  · exact text_nil
  · exact text_append (text_append (text_append (text_append (text_append (text_append (text_append (text_append
      (hP.lit rfl) (text_fmt hP (text_cardinal hP _))) (hP.lit rfl)) (text_direction hP hd _)) (hP.lit rfl))
      (text_fmt hP (text_cardinal hP _))) (hP.lit rfl)) (text_direction hP hd _)) (hP.lit rfl)

theorem shown_visibility (hP : Ascii P) (hd : P 176) (v : Visibility) : ∀ c ∈ v.str, P c := by
  unfold Visibility.str
  split
  · exact hP.lit rfl
  · have hb : ∀ c ∈ (match inKilometers v.vis with
        | some x => fmt1 x ++ py!" km"
        | none => distanceStr v.vis), P c := by
      split
      · exact text_append (text_number hP _) (hP.lit rfl)
      · exact text_distance hP _
    simp only
    split
    · exact text_append (text_append (text_append (text_append (text_append hb (hP.lit rfl))
        (text_fmt hP (text_cardinal hP _))) (hP.lit rfl)) (text_direction hP hd _)) (hP.lit rfl)
    · exact hb

theorem text_range2str (hP : Ascii P) {v : Option F64} {o : Option PyStr} (h : TextOf P o) :
    ∀ c ∈ range2str v o, P c := by
  unfold range2str
  split
  · exact text_nil
  · split
    · exact text_append (text_append (text_fmt hP h) (hP.lit rfl)) (text_distance hP _)
    · exact text_distance hP _

theorem shown_range (hP : Ascii P) {m : Match} (hs : ∀ c ∈ m.string, P c) {x : RunwayRange}
    (h : RunwayRange.new m = .ok x) : ∀ c ∈ x.str, P c := by
  unfold RunwayRange.new at h
  obtain ⟨a, -, h⟩ := bind_ok.1 h
  obtain ⟨b, -, h⟩ := bind_ok.1 h
  cases pure_ok.1 h
  unfold RunwayRange.str
  split
  · exact text_nil
  · refine text_append (text_append (text_append (text_append (text_append (hP.lit rfl)
      (text_fmt hP (text_runway hP (text_group hs _)))) (hP.lit rfl)) (text_range2str hP (hP.table rfl _))) ?_) ?_
    · split
      · exact text_append (hP.lit rfl) (text_range2str hP (hP.table rfl _))
      · exact text_nil
    · split
      · exact text_append (hP.lit rfl) (text_fmt hP (hP.table rfl _))
      · exact text_nil

theorem text_weather (hP : Ascii P) {l : List (Option PyStr)} (h : ∀ o ∈ l, TextOf P o) : ∀ c ∈ weatherText l, P c := by
  unfold weatherText
  refine text_squeeze hP (text_replace hP (by decide) (text_join (hP.lit rfl) fun s hs => ?_) rfl)
  obtain ⟨o, ho, rfl⟩ := List.mem_map.1 hs
  exact text_fmt hP (h o ho)

theorem shown_weather (hP : Ascii P) (m : Match) : ∀ c ∈ (Weather.new m).str, P c := by
  refine text_weather hP ?_
  simp only [Weather.new, List.forall_mem_cons, List.not_mem_nil, false_imp_iff, implies_true, and_true]
  exact ⟨hP.table rfl _, hP.table rfl _, hP.table rfl _, hP.table rfl _, hP.table rfl _⟩

theorem shown_recent (hP : Ascii P) (m : Match) : ∀ c ∈ (RecentWeather.new m).str, P c := by
  refine text_weather hP ?_
  simp only [RecentWeather.new, List.forall_mem_cons, List.not_mem_nil, false_imp_iff, implies_true, and_true]
  exact ⟨hP.table rfl _, hP.table rfl _, hP.table rfl _, hP.table rfl _⟩

theorem text_cloud (hP : Ascii P) {x : Cloud} (h1 : TextOf P x.cover) (h2 : TextOf P x.type) : ∀ c ∈ x.str, P c := by
  have hc := text_fmt hP h1
  unfold Cloud.str
  simp only
  split
  · exact text_append (text_append (text_append (text_append hc (hP.lit rfl)) (text_num hP _)) (hP.lit rfl))
      (text_fmt hP h2)
  · split
    · exact text_append (text_append (text_append hc (hP.lit rfl)) (text_num hP _)) (hP.lit rfl)
    · split
      · exact hc
      · split
        · exact hc
        · exact text_append hc (hP.lit rfl)

theorem shown_cloud (hP : Ascii P) {m : Match} {x : Cloud} (h : Cloud.fromMetar m = .ok x) : ∀ c ∈ x.str, P c := by
  have key : ∀ t, (pure (⟨groupCode (some m.string), dget skyCover ((m.group .cover).getD []),
      some (setOktas ((m.group .cover).getD [])), dgetO cloudTypes (m.group .type), distance (some t)⟩ : Cloud) :
      Except Exc Cloud) = .ok x → ∀ c ∈ x.str, P c := by
    intro t e
    cases pure_ok.1 e
    exact text_cloud hP (hP.table (t := skyCover) rfl (some _)) (hP.table (t := cloudTypes) rfl _)
  unfold Cloud.fromMetar at h
  simp only at h
  split at h
  · exact key _ h
  · split at h
    · exact key _ h
    · obtain ⟨a, -, h⟩ := bind_ok.1 h
      exact key _ h

theorem shown_temperatures (hP : Ascii P) (hd : P 176) (t : Temperatures) : ∀ c ∈ t.str, P c := by
  unfold Temperatures.str
  have ht := fun v => text_temperature hP hd v
  split
  · exact text_nil
  · split
    · exact text_append (hP.lit rfl) (ht _)
    · split
      · exact text_append (text_append (hP.lit rfl) (ht _)) (hP.lit rfl)
      · exact text_append (text_append (text_append (hP.lit rfl) (ht _)) (hP.lit rfl)) (ht _)

theorem shown_shear (hP : Ascii P) {m : Match} (hs : ∀ c ∈ m.string, P c) : ∀ c ∈ (Windshear.new m).str, P c := by
  unfold Windshear.str
  split
  · refine text_getD ?_
    have hg := text_group hs .name
    show TextOf P (match m.group .name with
      | none => none
      | some n => if n.length = 2 then some n else if n.length = 3 then setRunwayName (some n) else none)
    split
    · exact .none
    · next n hn =>
      split
      · exact hn ▸ hg
      · split
        · exact text_runway hP (hn ▸ hg)
        · exact .none
  · split
    · exact hP.lit rfl
    · exact text_nil

theorem text_sea (hP : Ascii P) (hd : P 176) {s : SeaState} (h : TextOf P s.state) : ∀ c ∈ s.str, P c := by
  unfold SeaState.str
  split
  · exact text_nil
  · refine text_append (text_append ?_ ?_) ?_
    · split
      · exact text_append (text_append (hP.lit rfl) (text_temperature hP hd _)) (hP.lit rfl)
      · exact hP.lit rfl
    · split
      · exact text_append (text_append (hP.lit rfl) (text_distance hP _)) (hP.lit rfl)
      · exact hP.lit rfl
    · split
      · exact text_getD h
      · exact hP.lit rfl

theorem shown_sea (hP : Ascii P) (hd : P 176) {m : Match} {s : SeaState} (h : SeaState.new m = .ok s) :
    ∀ c ∈ s.str, P c := by
  unfold SeaState.new at h
  obtain ⟨a, -, h⟩ := bind_ok.1 h
  cases pure_ok.1 h
  exact text_sea hP hd (hP.table (t := seaStateTable) rfl _)

theorem text_depth (hP : Ascii P) (o : Option PyStr) : TextOf P (setDepositsDepth o) := by
  unfold setDepositsDepth
  split
  · exact .none
  · split
    · split
      · exact .some (text_append (hP.digits (natStr_ascii _)) (hP.lit rfl))
      · exact hP.table (t := depositDepth) rfl (some _)
    · exact hP.table (t := depositDepth) rfl (some _)

theorem text_friction (hP : Ascii P) (o : Option PyStr) : TextOf P (setSurfaceFriction o) := by
  unfold setSurfaceFriction
  split
  · exact .none
  · split
    · split
      · exact .some (text_append (hP.lit rfl) (hP.digits (padNat_ascii _ _)))
      · exact hP.table (t := surfaceFriction) rfl (some _)
    · exact hP.table (t := surfaceFriction) rfl (some _)

theorem text_deposits (hP : Ascii P) {r : RunwayState} (h1 : TextOf P r.depth) (h2 : TextOf P r.deposits) :
    ∀ c ∈ r.depositsText, P c := by
  have a := text_fmt hP h1
  have b := text_fmt hP h2
  unfold RunwayState.depositsText
  repeat' split
  all_goals first
    | exact text_nil
    | exact a
    | exact b
    | exact text_append (hP.lit rfl) a
    | exact text_append (hP.lit rfl) b
    | exact text_append (text_append a (hP.lit rfl)) b
    | exact text_append (text_append (text_append (hP.lit rfl) a) (hP.lit rfl)) b

theorem text_frictionText (hP : Ascii P) {r : RunwayState} (h : TextOf P r.friction) : ∀ c ∈ r.frictionText, P c := by
  have a := text_fmt hP h
  unfold RunwayState.frictionText
  repeat' split
  all_goals first
    | exact text_nil
    | exact a
    | exact text_append (hP.lit rfl) a

theorem shown_runwayState (hP : Ascii P) {m : Match} (hs : ∀ c ∈ m.string, P c) :
    ∀ c ∈ (RunwayState.new m).str, P c := by
  have hn : ∀ c ∈ fmtO (RunwayState.new m).name, P c := text_fmt hP (text_runway hP (text_group hs _))
  unfold RunwayState.str
  split
  · exact text_nil
  · split
    · exact hP.lit rfl
    · split
      · next t ht =>
        unfold RunwayState.clrd at ht
        split at ht
        · cases ht
        · split at ht
          · cases ht; exact hP.lit rfl
          · split at ht
            · cases ht; exact text_append (hP.lit rfl) hn
            · cases ht; exact text_append (hP.lit rfl) hn
      · exact text_append (text_append (text_append (text_append (text_append (text_append hn (hP.lit rfl))
          (text_deposits hP (text_depth hP _) (hP.table (t := runwayDeposits) rfl _))) (hP.lit rfl))
          (text_fmt hP (hP.table (t := runwayContamination) rfl _))) (hP.lit rfl))
          (text_frictionText hP (text_friction hP _))

theorem shown_type (hP : Ascii P) {s : PyStr} (hs : ∀ c ∈ s, P c) : ∀ c ∈ (ReportType.new s).str, P c :=
  text_append (text_append (text_append (text_fmt hP (hP.table (t := typesTable) rfl (some s))) (hP.lit rfl))
    (text_fmt hP (text_code hP hs))) (hP.lit rfl)

theorem text_lower (hP : Ascii P) {s : PyStr} (hs : ∀ c ∈ s, P c) : ∀ c ∈ lower s, P c := by
  intro c hc
  obtain ⟨x, hx, rfl⟩ := List.mem_map.1 hc
  split
  · exact hP _ (by omega)
  · exact hs x hx

theorem shown_modifier (hP : Ascii P) (o : Option PyStr) : ∀ c ∈ (Modifier.new o).str, P c := by
  unfold Modifier.str
  split
  · exact text_nil
  · next d hd =>
    exact text_lower hP (hP.table (t := modifiersTable) rfl o d hd)

theorem shown_station (hP : Ascii P) {db : Database} (hdb : ∀ c, InTables db c → P c) {s : PyStr}
    {x : Station} (h : Station.new db (some s) py!"ICAO" = .ok x) : ∀ c ∈ x.str db, P c := by
  unfold Station.new at h
  simp only [stationData, codeColumn, if_true] at h
  cases h
  have row : ∀ f : StationRow → PyStr, (∀ r c, r ∈ db.stations → c ∈ f r → P c) →
      ∀ c ∈ fmtO ((db.stations.find? fun r => decide (s = r.icao)).map f), P c := by
    intro f hf
    refine text_fmt hP fun t ht c hc => ?_
    obtain ⟨r, hr, rfl⟩ := Option.map_eq_some_iff.1 ht
    exact hf r c (List.mem_of_find?_eq_some hr) hc
  unfold Station.str
  refine text_append (text_append (text_append (text_append (text_append (text_append (text_append (text_append
    (text_append (hP.lit rfl) (row _ ?_)) (hP.lit rfl)) (row _ ?_)) (hP.lit rfl)) (row _ ?_)) (hP.lit rfl))
    (row _ ?_)) (hP.lit rfl)) (text_fmt hP ?_)
  · exact fun r c h1 h2 => hdb c (.inl ⟨r, h1, by simp [h2]⟩)
  · exact fun r c h1 h2 => hdb c (.inl ⟨r, h1, by simp [h2]⟩)
  · exact fun r c h1 h2 => hdb c (.inl ⟨r, h1, by simp [h2]⟩)
  · exact fun r c h1 h2 => hdb c (.inl ⟨r, h1, by simp [h2]⟩)
  · intro t ht c hc
    unfold Station.country dgetO at ht
    split at ht
    · cases ht
    · obtain ⟨y, h1, rfl⟩ := dget_mem ht
      exact hdb c (.inr ⟨y, h1, hc⟩)

theorem shown_valid (hP : Ascii P) (v : Valid) : ∀ c ∈ v.str, P c :=
  text_append (text_append (text_append (hP.lit rfl) (text_dt hP _)) (hP.lit rfl)) (text_dt hP _)

theorem shown_cancelled (hP : Ascii P) (x : Cancelled) : ∀ c ∈ x.str, P c := by
  unfold Cancelled.str
  split
  · exact hP.lit rfl
  · exact text_nil

theorem shown_tafTemperature (hP : Ascii P) (hd : P 176) (t : TafTemperature) : ∀ c ∈ t.str, P c := by
  unfold TafTemperature.str
  split
  · exact text_temperature hP hd _
  · exact text_append (text_append (text_temperature hP hd _) (hP.lit rfl)) (text_dt hP _)

/-! ### Indicators -/

theorem text_translationOf (hP : Ascii P) {k v : PyStr} (h : translationOf k = .ok v) : ∀ c ∈ v, P c := by
  unfold translationOf at h
  split at h
  · next w hw =>
    cases h
    exact hP.table (t := changeTranslations) rfl (some k) _ hw
  · cases h

theorem text_changeIndicator (hP : Ascii P) {m : Match} {x : Option PyStr × Option PyStr}
    (h : changeIndicator m = .ok x) : TextOf P x.2 := by
  unfold changeIndicator at h
  split at h
  · next w hw =>
    cases h
    exact .some (hP.table (t := changeTranslations) rfl (some _) _ hw)
  · split at h
    · split at h
      · obtain ⟨a, ha, h⟩ := bind_ok.1 h
        obtain ⟨b, hb, h⟩ := bind_ok.1 h
        cases pure_ok.1 h
        exact .some (text_append (text_append (text_translationOf hP ha) (hP.lit rfl)) (text_translationOf hP hb))
      · obtain ⟨a, ha, h⟩ := bind_ok.1 h
        cases h
      · cases h
    · cases h
      exact .none

theorem text_translation {o : Option PyStr} (h : TextOf P o) : ∀ c ∈ translationText o, P c := by
  unfold translationText
  split
  · exact text_getD h
  · exact text_nil

theorem text_trendIndicator (hP : Ascii P) {o : Option Match} {t : DT} {x : TrendIndicator}
    (h : TrendIndicator.new o t = .ok x) : TextOf P x.translation := by
  unfold TrendIndicator.new at h
  obtain ⟨⟨a, b⟩, ha, h⟩ := bind_ok.1 h
  obtain ⟨e, -, h⟩ := bind_ok.1 h
  cases pure_ok.1 h
  cases o with
  | none => cases ha; exact .none
  | some m => exact text_changeIndicator hP ha

theorem shown_trendIndicator (hP : Ascii P) {x : TrendIndicator} (h : TextOf P x.translation) : ∀ c ∈ x.str, P c := by
  have ht := text_translation h
  have hd := fun t : Time => (text_dt hP t.time : ∀ c ∈ t.str, P c)
  unfold TrendIndicator.str
  repeat' split
  all_goals first
    | exact ht
    | exact text_append (text_append ht (hP.lit rfl)) (hd _)
    | exact text_append (text_append (text_append (text_append ht (hP.lit rfl)) (hd _)) (hP.lit rfl)) (hd _)

theorem addPeriod_translation {t x : TrendIndicator} {m : Match} (h : t.addPeriod m = .ok x) :
    x.translation = t.translation := by
  unfold TrendIndicator.addPeriod at h
  obtain ⟨a, -, h⟩ := bind_ok.1 h
  obtain ⟨b, -, h⟩ := bind_ok.1 h
  obtain ⟨c, -, h⟩ := bind_ok.1 h
  obtain ⟨d, -, h⟩ := bind_ok.1 h
  obtain ⟨e, -, h⟩ := bind_ok.1 h
  simp only at h
  split at h
  · cases pure_ok.1 h; rfl
  · split at h
    · cases pure_ok.1 h; rfl
    · cases pure_ok.1 h; rfl

theorem text_tafIndicator (hP : Ascii P) {o : Option Match} {v : Valid} {x : TafIndicator}
    (h : TafIndicator.new o v = .ok x) : TextOf P x.translation := by
  unfold TafIndicator.new at h
  split at h
  · cases h; exact .none
  · split at h
    · obtain ⟨a, -, h⟩ := bind_ok.1 h
      obtain ⟨b, -, h⟩ := bind_ok.1 h
      obtain ⟨c, -, h⟩ := bind_ok.1 h
      obtain ⟨d, -, h⟩ := bind_ok.1 h
      obtain ⟨e, -, h⟩ := bind_ok.1 h
      obtain ⟨f, -, h⟩ := bind_ok.1 h
      cases pure_ok.1 h
      exact .some (shown_valid hP _)
    · obtain ⟨⟨a, b⟩, ha, h⟩ := bind_ok.1 h
      cases pure_ok.1 h
      exact text_changeIndicator hP ha

theorem text_setValid (hP : Ascii P) {i x : TafIndicator} {m : Match} {t : Time} (hi : TextOf P i.translation)
    (h : i.setValidPeriod m t = .ok x) : TextOf P x.translation := by
  unfold TafIndicator.setValidPeriod at h
  obtain ⟨v, -, h⟩ := bind_ok.1 h
  split at h
  · cases h
  · split at h
    · cases pure_ok.1 h
      exact .some (shown_valid hP _)
    · cases pure_ok.1 h
      exact .some (text_append (text_append (text_fmt hP hi) (hP.lit rfl)) (shown_valid hP _))

/-! ### Running the handlers -/

theorem runs_inv {σ : Type} {Q : σ → Prop} {S : PyStr → Prop} {hs : List (Handler σ)}
    (hq : ∀ h ∈ hs, ∀ m s s', h.regexp.match m.string = some m → S m.string → Q s → h.run m s = .ok s' → Q s')
    {c : List (PyStr × Nat)} (hc : ∀ g i, (g, i) ∈ c → S g) {s : σ} {out : Except Exc σ} (h : Runs hs c s out)
    (h0 : Q s) : ∀ s', out = .ok s' → Q s' := by
  induction h with
  | nil s => intro s' e; cases e; exact h0
  | fail _ _ _ => intro s' e; cases e
  | step h1 h2 h3 _ ih =>
    refine ih (fun g i hm => hc g i (List.mem_cons_of_mem _ hm)) ?_
    have e := RE.match_string h2
    exact hq _ (List.mem_of_getElem? h1) _ _ _ (e ▸ h2) (e ▸ hc _ _ (List.mem_cons_self ..)) h0 h3

theorem section_inv {σ : Type} {Q : σ → Prop} {S : PyStr → Prop} {hs : List (Handler σ)}
    (hq : ∀ h ∈ hs, ∀ m s s', h.regexp.match m.string = some m → S m.string → Q s → h.run m s = .ok s' → Q s')
    {text : PyStr} (ht : ∀ g ∈ splitC 32 text, S g) {s s' : σ} {un : List PyStr}
    (h : parseSection hs text s = .ok (s', un)) (h0 : Q s) : Q s' := by
  obtain ⟨out, h1, h2⟩ := parseSection_eq (hs := hs) (text := text) (s := s)
  rw [h2] at h
  cases out with
  | error e => cases h
  | ok s1 =>
    simp only [Except.map, Except.ok.injEq, Prod.mk.injEq] at h
    obtain ⟨rfl, -⟩ := h
    exact runs_inv hq (fun g i hm => ht g (consumed_mem hm)) h1 h0 _ rfl

/-- The text buffer satisfies the predicate. -/
abbrev Buffer (P : Nat → Prop) (c : Core) : Prop := ∀ x ∈ c.string, P x

theorem Buffer.concat (hP : Ascii P) {c : Core} (h : Buffer P c) {t : PyStr} (ht : ∀ x ∈ t, P x) :
    Buffer P (c.concat t) := text_append h (text_append ht (hP.lit rfl))

/-- A handler of the shared attributes keeps the buffer within the predicate. -/
abbrev KeepsText (P : Nat → Prop) (h : Match → Core → Except Exc Core) : Prop :=
  ∀ m c c', Buffer P c → h m c = .ok c' → Buffer P c'

theorem keeps_wind (hP : Ascii P) (hd : P 176) : KeepsText P Core.handleWind := by
  intro m c c' hc h
  obtain ⟨w, -, h⟩ := bind_ok.1 h
  cases pure_ok.1 h
  exact Buffer.concat hP (c := { c with wind := w }) hc (shown_wind hP hd w)

theorem keeps_prevailing (hP : Ascii P) (hd : P 176) : KeepsText P Core.handlePrevailing := by
  intro m c c' hc h
  obtain ⟨v, -, h⟩ := bind_ok.1 h
  cases pure_ok.1 h
  exact Buffer.concat hP (c := { c with prevailing := v }) hc (shown_visibility hP hd v)

theorem keeps_weather (hP : Ascii P) : KeepsText P Core.handleWeather := by
  intro m c c' hc h
  obtain ⟨ws, -, h⟩ := bind_ok.1 h
  cases pure_ok.1 h
  exact Buffer.concat hP (c := { c with weathers := ws }) hc (shown_weather hP m)

theorem keeps_cloud (hP : Ascii P) : KeepsText P Core.handleCloud := by
  intro m c c' hc h
  obtain ⟨x, hx, h⟩ := bind_ok.1 h
  obtain ⟨xs, -, h⟩ := bind_ok.1 h
  cases pure_ok.1 h
  exact Buffer.concat hP (c := { c with clouds := xs }) hc (shown_cloud hP hx)

theorem lift_ok {σ : Type} {get : σ → Core} {set : σ → Core → σ} {h : Match → Core → Except Exc Core} {m : Match}
    {s s' : σ} (e : liftCore get set h m s = .ok s') : ∃ c, h m (get s) = .ok c ∧ s' = set s c := by
  unfold liftCore at e
  split at e
  · next c hc => cases e; exact ⟨c, hc, rfl⟩
  · cases e

/-! ### Changes -/

theorem shown_trend (hP : Ascii P) (hd : P 176) {code : PyStr} {time : DT} {p : ChangePeriod}
    (h : ChangePeriod.new code time = .ok p) : ∀ c ∈ p.str, P c := by
  unfold ChangePeriod.new at h
  obtain ⟨ind, hi, h⟩ := bind_ok.1 h
  obtain ⟨⟨q, un⟩, hq, h⟩ := bind_ok.1 h
  cases pure_ok.1 h
  refine text_strip (section_inv (Q := fun p : ChangePeriod => Buffer P p.core ∧ TextOf P p.indicator.translation)
    (S := fun _ => True) ?_ (fun _ _ => trivial) hq ⟨text_nil, text_trendIndicator hP hi⟩).1
  have lift : ∀ f, KeepsText P f → ∀ r m (s s' : ChangePeriod), RE.match r m.string = some m → True →
      Buffer P s.core ∧ TextOf P s.indicator.translation → ChangePeriod.lift f m s = .ok s' →
      Buffer P s'.core ∧ TextOf P s'.indicator.translation := by
    intro f hf r m s s' _ _ hs e
    obtain ⟨c, hc, rfl⟩ := lift_ok e
    exact ⟨hf m _ c hs.1 hc, hs.2⟩
  have period : ∀ r m (s s' : ChangePeriod), RE.match r m.string = some m → True →
      Buffer P s.core ∧ TextOf P s.indicator.translation → ChangePeriod.handleTimePeriod m s = .ok s' →
      Buffer P s'.core ∧ TextOf P s'.indicator.translation := by
    intro r m s s' _ _ hs e
    obtain ⟨t, ht, e⟩ := bind_ok.1 e
    cases pure_ok.1 e
    have : TextOf P t.translation := by rw [addPeriod_translation ht]; exact hs.2
    exact ⟨text_exchange hs.1 (shown_trendIndicator hP this), this⟩
  simp only [ChangePeriod.handlers, List.forall_mem_cons, List.not_mem_nil, false_imp_iff, implies_true, and_true]
  refine ⟨?_, period _, period _, lift _ (keeps_wind hP hd) _, lift _ (keeps_prevailing hP hd) _, lift _ (keeps_weather hP) _,
    lift _ (keeps_weather hP) _, lift _ (keeps_weather hP) _, lift _ (keeps_cloud hP) _, lift _ (keeps_cloud hP) _,
    lift _ (keeps_cloud hP) _, lift _ (keeps_cloud hP) _⟩
  intro m s s' _ _ hs e
  obtain ⟨t, ht, e⟩ := bind_ok.1 e
  cases pure_ok.1 e
  have := text_trendIndicator hP ht
  exact ⟨hs.1.concat hP (shown_trendIndicator hP this), this⟩

theorem shown_change (hP : Ascii P) {code : PyStr} {v : Valid} {x : ChangeForecasted}
    (h : ChangeForecasted.new code v = .ok x) : TextOf P x.indicator.translation := by
  unfold ChangeForecasted.new at h
  obtain ⟨ind, hi, h⟩ := bind_ok.1 h
  obtain ⟨⟨q, un⟩, hq, h⟩ := bind_ok.1 h
  cases pure_ok.1 h
  have h0 := text_tafIndicator hP hi
  suffices hh : TextOf P q.indicator.translation from hh
  refine section_inv (Q := fun p : ChangeForecasted => TextOf P p.indicator.translation) (S := fun _ => True)
    ?_ (fun _ _ => trivial) hq h0
  have lift : ∀ f r m (s s' : ChangeForecasted), RE.match r m.string = some m → True →
      TextOf P s.indicator.translation → ChangeForecasted.lift f m s = .ok s' → TextOf P s'.indicator.translation := by
    intro f r m s s' _ _ hs e
    obtain ⟨c, hc, rfl⟩ := lift_ok e
    exact hs
  simp only [ChangeForecasted.handlers, List.forall_mem_cons, List.not_mem_nil, false_imp_iff, implies_true, and_true]
  refine ⟨?_, ?_, lift _ _, lift _ _, lift _ _, lift _ _, lift _ _, lift _ _, lift _ _, lift _ _, lift _ _⟩
  · intro m s s' _ _ hs e
    obtain ⟨t, ht, e⟩ := bind_ok.1 e
    cases pure_ok.1 e
    exact text_tafIndicator hP ht
  · intro m s s' _ _ hs e
    obtain ⟨t, ht, e⟩ := bind_ok.1 e
    cases pure_ok.1 e
    exact text_setValid hP hs ht

/-! ### Characters of the groups whose text is shown -/

/-- The patterns of the groups that show a part of their text. -/
def shownPatterns : List RE :=
  [MetarRegExp.TYPE, MetarRegExp.RUNWAY_RANGE, MetarRegExp.WINDSHEAR, MetarRegExp.RUNWAY_STATE]

theorem shownPatterns_closed : ∀ r ∈ shownPatterns, inside r = true ∧ deadEnd r = true := by decide +kernel

theorem shown_chars {r : RE} (hr : r ∈ shownPatterns) {s : PyStr} {m : Match} (hm : r.match s = some m) :
    ∀ c ∈ s, c < 128 ∨ isDigit c = true := by
  intro c hc
  by_cases h : telegraphic c = true
  · unfold telegraphic at h
    simp only [Bool.or_eq_true, decide_eq_true_eq, Bool.and_eq_true, List.contains_eq_mem, List.mem_cons,
      List.not_mem_nil, or_false] at h
    by_cases hd : isDigit c = true
    · exact .inr hd
    · left
      rcases h with (h | h) | h
      · omega
      · exact absurd h hd
      · omega
  · by_cases h10 : c = 10
    · exact .inl (by omega)
    · exfalso
      obtain ⟨p, t, rfl⟩ := List.append_of_mem hc
      rw [match_foreign ⟨by simpa using h, h10⟩ (shownPatterns_closed r hr).1,
        match_none_iff.2 (deadEnd_sound (shownPatterns_closed r hr).2 p 0)] at hm
      cases hm

/-- Every class of the shape is ASCII. -/
def asciiShape (ks : List CC) : Bool := ks.all fun k => CC.test k (.set [(0, 127)]) == some true

theorem asciiShape_sound {ks : List CC} (h : asciiShape ks = true) {s : PyStr} (hs : HasShape ks s) :
    ∀ c ∈ s, c < 128 := by
  induction ks generalizing s with
  | nil => cases hs; intro c hc; cases hc
  | cons k ks ih =>
    obtain ⟨d, t, rfl, hd, ht⟩ := hs
    simp only [asciiShape, List.all_cons, Bool.and_eq_true, beq_iff_eq] at h
    intro c hc
    rcases List.mem_cons.1 hc with rfl | hc
    · have := CC.test_sound h.1 hd
      simp only [CC.mem, CC.ranges, inRanges, List.any_cons, List.any_nil, Bool.or_false, Bool.and_eq_true,
        Nat.ble_eq] at this
      omega
    · exact ih h.2 ht c hc

theorem type_shape : MetarRegExp.TYPE.everyShape asciiShape = true := by decide +kernel

theorem type_ascii {s : PyStr} {m : Match} (hm : MetarRegExp.TYPE.match s = some m) (hn : 10 ∉ s) : ∀ c ∈ s, c < 128 := by
  obtain ⟨ks, hk, hs⟩ := RE.everyShape_sound type_shape hm hn
  exact asciiShape_sound hk hs

/-! ### Reports -/

theorem metar_handlers (hP : Ascii P) (hd : P 176) {db : Database} (hdb : ∀ c, InTables db c → P c) (now : Now)
    (a : Args) {S : PyStr → Prop} (hS : ∀ r ∈ shownPatterns, ∀ s m, RE.match r s = some m → S s → ∀ c ∈ s, P c) :
    ∀ h ∈ Metar.handlers db now a, ∀ m s s', h.regexp.match m.string = some m → S m.string → Buffer P s.core →
      h.run m s = .ok s' → Buffer P s'.core := by
  have lift : ∀ f, KeepsText P f → ∀ r m (s s' : Metar), RE.match r m.string = some m → S m.string → Buffer P s.core →
      Metar.lift f m s = .ok s' → Buffer P s'.core := by
    intro f hf r m s s' _ _ hs e
    obtain ⟨c, hc, rfl⟩ := lift_ok e
    exact hf m _ c hs hc
  have range : ∀ m (s s' : Metar), RE.match MetarRegExp.RUNWAY_RANGE m.string = some m → S m.string → Buffer P s.core →
      Metar.handleRunwayRange m s = .ok s' → Buffer P s'.core := by
    intro m s s' he hm hs e
    obtain ⟨x, hx, e⟩ := bind_ok.1 e
    obtain ⟨l, -, e⟩ := bind_ok.1 e
    cases pure_ok.1 e
    exact hs.concat hP (shown_range hP (hS _ (by simp [shownPatterns]) _ _ he hm) hx)
  have pressure : ∀ m (s s' : Metar), RE.match MetarRegExp.PRESSURE m.string = some m → S m.string → Buffer P s.core →
      Metar.handlePressure m s = .ok s' → Buffer P s'.core := by
    intro m s s' he hm hs e
    obtain ⟨x, hx, e⟩ := bind_ok.1 e
    cases pure_ok.1 e
    exact hs.concat hP (text_unit hP _ (hP.lit rfl))
  have shear : ∀ m (s s' : Metar), RE.match MetarRegExp.WINDSHEAR m.string = some m → S m.string → Buffer P s.core →
      Metar.handleWindshear m s = .ok s' → Buffer P s'.core := by
    intro m s s' he hm hs e
    obtain ⟨l, -, e⟩ := bind_ok.1 e
    cases pure_ok.1 e
    exact hs.concat hP (shown_shear hP (hS _ (by simp [shownPatterns]) _ _ he hm))
  simp only [Metar.handlers, List.forall_mem_cons, List.not_mem_nil, false_imp_iff, implies_true, and_true]
  refine ⟨?_, ?_, ?_, ?_, lift _ (keeps_wind hP hd) _, ?_, lift _ (keeps_prevailing hP hd) _, ?_, range, range, range,
    lift _ (keeps_weather hP) _, lift _ (keeps_weather hP) _, lift _ (keeps_weather hP) _, lift _ (keeps_cloud hP) _,
    lift _ (keeps_cloud hP) _, lift _ (keeps_cloud hP) _, lift _ (keeps_cloud hP) _, ?_, pressure, pressure, ?_,
    shear, shear, shear, ?_, ?_⟩
  · intro m s s' he hm hs e
    cases e
    exact hs.concat hP (shown_type hP (hS _ (by simp [shownPatterns]) _ _ he hm))
  · intro m s s' he hm hs e
    obtain ⟨x, hx, e⟩ := bind_ok.1 e
    cases pure_ok.1 e
    exact hs.concat hP (shown_station hP hdb hx)
  · intro m s s' he hm hs e
    obtain ⟨x, hx, e⟩ := bind_ok.1 e
    cases pure_ok.1 e
    exact hs.concat hP (text_dt hP _)
  · intro m s s' he hm hs e
    cases e
    exact hs.concat hP (shown_modifier hP _)
  · intro m s s' he hm hs e
    obtain ⟨x, hx, e⟩ := bind_ok.1 e
    cases pure_ok.1 e
    exact hs.concat hP (shown_variation hP hd _)
  · intro m s s' he hm hs e
    obtain ⟨x, hx, e⟩ := bind_ok.1 e
    cases pure_ok.1 e
    exact hs.concat hP (shown_visibility hP hd _)
  · intro m s s' he hm hs e
    obtain ⟨x, hx, e⟩ := bind_ok.1 e
    cases pure_ok.1 e
    exact hs.concat hP (shown_temperatures hP hd _)
  · intro m s s' he hm hs e
    cases e
    exact hs.concat hP (shown_recent hP _)
  · intro m s s' he hm hs e
    obtain ⟨x, hx, e⟩ := bind_ok.1 e
    cases pure_ok.1 e
    exact hs.concat hP (shown_sea hP hd hx)
  · intro m s s' he hm hs e
    cases e
    exact hs.concat hP (shown_runwayState hP (hS _ (by simp [shownPatterns]) _ _ he hm))

theorem shown_metar (hP : Ascii P) (hd : P 176) {db : Database} (hdb : ∀ c, InTables db c → P c) {clock : Clock}
    {code : PyStr} {a : Args} {r : Metar} (hs : ∀ c ∈ code, isDigit c = true → P c)
    (h : Metar.new db clock code a = .ok r) :
    ∀ c ∈ r.str, P c := by
  obtain ⟨t0, time, r1, un, r2, -, -, -, h2, -, h3, rfl, -⟩ := Metar.new_ok h
  have hQ : Ascii fun c => isDigit c = true → P c := fun c h _ => hP c h
  have hsc := text_metarSections hQ (text_normalize hQ hs)
  have body : Buffer P r1.core :=
    section_inv (Q := fun r : Metar => Buffer P r.core) (S := fun s => ∀ c ∈ s, isDigit c = true → P c)
      (metar_handlers hP hd hdb _ a fun r hr s m hm (h : ∀ c ∈ s, isDigit c = true → P c) c hc => (shown_chars hr hm c hc).elim (hP c) (h c hc))
      (text_splitC hQ (text_windshear hQ (text_visibility hQ hsc.1))) h2 text_nil
  have trends : ∀ (ts : List PyStr) (x y : Metar), Buffer P x.core →
      Metar.trendsGo ts x = .ok y → Buffer P y.core := by
    intro ts
    induction ts with
    | nil => intro x y hx e; cases e; exact hx
    | cons t ts ih =>
      intro x y hx e
      unfold Metar.trendsGo at e
      split at e
      · obtain ⟨z, hz, e⟩ := bind_ok.1 e
        refine ih z y ?_ e
        obtain ⟨p, hp, hz⟩ := bind_ok.1 hz
        obtain ⟨l, -, hz⟩ := bind_ok.1 hz
        cases pure_ok.1 hz
        exact hx.concat hP (shown_trend hP hd hp)
      · exact ih x y hx e
  have hb := trends _ { r1 with unparsed := un } r2 body h3
  exact text_strip (s := r2.core.string) hb

theorem shown_taf (hP : Ascii P) (hd : P 176) {db : Database} (hdb : ∀ c, InTables db c → P c) {clock : Clock}
    {code : PyStr} {a : Args} {r : Taf} (h : Taf.new db clock code a = .ok r) :
    ∀ c ∈ r.str, P c := by
  obtain ⟨time, v, r1, un, r2, -, -, -, h2, -, h3, rfl, -⟩ := Taf.new_ok h
  have hS : ∀ s m, MetarRegExp.TYPE.match s = some m → 10 ∉ s → ∀ c ∈ s, P c :=
    fun s m hm hn c hc => hP c (type_ascii hm hn c hc)
  have body : Buffer P r1.core := by
    refine section_inv (Q := fun r : Taf => Buffer P r.core) (S := fun s => 10 ∉ s) ?_
      (not_mem_splitC (Taf.bodyText_no_newline (normalizeCode_no_newline code))) h2 text_nil
    have lift : ∀ f, KeepsText P f → ∀ r m (s s' : Taf), RE.match r m.string = some m → 10 ∉ m.string → Buffer P s.core →
        Taf.lift f m s = .ok s' → Buffer P s'.core := by
      intro f hf r m s s' _ _ hs e
      obtain ⟨c, hc, rfl⟩ := lift_ok e
      exact hf m _ c hs hc
    have temperature : ∀ m (s s' : Taf), RE.match TafRegExp.TEMPERATURE m.string = some m → 10 ∉ m.string → Buffer P s.core →
        Taf.handleTemperature m s = .ok s' → Buffer P s'.core := by
      intro m s s' he hm hs e
      obtain ⟨x, hx, e⟩ := bind_ok.1 e
      split at e
      · obtain ⟨l, -, e⟩ := bind_ok.1 e
        cases pure_ok.1 e
        exact hs.concat hP (shown_tafTemperature hP hd x)
      · obtain ⟨l, -, e⟩ := bind_ok.1 e
        cases pure_ok.1 e
        exact hs.concat hP (shown_tafTemperature hP hd x)
    simp only [Taf.handlers, List.forall_mem_cons, List.not_mem_nil, false_imp_iff, implies_true, and_true]
    refine ⟨?_, ?_, ?_, ?_, ?_, ?_, ?_, lift _ (keeps_wind hP hd) _, lift _ (keeps_prevailing hP hd) _,
      lift _ (keeps_weather hP) _, lift _ (keeps_weather hP) _, lift _ (keeps_weather hP) _, lift _ (keeps_cloud hP) _,
      lift _ (keeps_cloud hP) _, lift _ (keeps_cloud hP) _, lift _ (keeps_cloud hP) _, temperature, temperature, temperature,
      temperature⟩
    · intro m s s' he hm hs e
      cases e
      exact hs.concat hP (shown_type hP (hS _ _ he hm))
    · intro m s s' he hm hs e
      cases e
      exact hs.concat hP (shown_modifier hP _)
    · intro m s s' he hm hs e
      obtain ⟨x, hx, e⟩ := bind_ok.1 e
      cases pure_ok.1 e
      exact hs.concat hP (shown_station hP hdb hx)
    · intro m s s' he hm hs e
      obtain ⟨x, hx, e⟩ := bind_ok.1 e
      cases pure_ok.1 e
      exact hs.concat hP (text_dt hP _)
    · intro m s s' he hm hs e
      cases e
      exact hs.concat hP (shown_modifier hP _)
    · intro m s s' he hm hs e
      obtain ⟨x, hx, e⟩ := bind_ok.1 e
      cases pure_ok.1 e
      exact hs.concat hP (shown_valid hP x)
    · intro m s s' he hm hs e
      cases e
      exact hs.concat hP (shown_cancelled hP _)
  have changes : ∀ (ts : List PyStr) (x y : Taf), Buffer P x.core →
      Taf.changesGo ts x = .ok y → Buffer P y.core := by
    intro ts
    induction ts with
    | nil => intro x y hx e; cases e; exact hx
    | cons t ts ih =>
      intro x y hx e
      unfold Taf.changesGo at e
      split at e
      · obtain ⟨z, hz, e⟩ := bind_ok.1 e
        refine ih z y ?_ e
        obtain ⟨p, hp, hz⟩ := bind_ok.1 hz
        obtain ⟨l, -, hz⟩ := bind_ok.1 hz
        cases pure_ok.1 hz
        exact hx.concat hP (text_append text_nil (text_append
          (text_translation (shown_change hP hp)) (hP.lit rfl)))
      · exact ih x y hx e
  have hb := changes _ { r1 with unparsed := un } r2 body h3
  exact text_strip (s := r2.core.string) hb

end Verif
