import Verif.Props.TafRuns
import Verif.Props.RoundTrip
import Verif.Props.Periods
import Verif.Props.Changes

/-
The methods of the TAF parsers succeed on the groups of a TAF record.
-/

namespace Verif.Props
open Spec MetarRegExp

/-! ### Instants near a time -/

theorem year_of_minutes {t u : DT} (ht : t.valid = true) (hu : u.valid = true)
    (h1 : (midnight t).toMinutes ≤ u.toMinutes) (h2 : u.toMinutes ≤ (midnight t).toMinutes + 365 * 1440) :
    t.year ≤ u.year ∧ u.year ≤ t.year + 1 := by
  have vt := ((DT.valid_iff _).1 ht).1
  have vu := (DT.valid_iff _).1 hu
  have yt := toOrd_year vt
  have yu := toOrd_year vu.1
  rw [midnight_minutes] at h1 h2
  have hu' : u.toMinutes = toOrd u.year u.month u.day * 1440 + u.hour * 60 + u.minute := rfl
  have hh := vu.2.1
  have hm := vu.2.2
  constructor
  · rcases Nat.lt_or_ge u.year t.year with h | h
    · have := daysBeforeYear_mono vu.1.1 h
      omega
    · exact h
  · rcases Nat.lt_or_ge (t.year + 1) u.year with h | h
    · have h3 := daysBeforeYear_mono vt.1 (y' := t.year + 1) (Nat.lt_succ_self t.year)
      have h4 := daysBeforeYear_mono (y := t.year + 1) (by omega) h
      have h5 : 365 ≤ yearLen (isLeap (t.year + 1)) := by cases isLeap (t.year + 1) <;> decide
      omega
    · exact h

theorem takes_exists {t : DT} (ht : t.valid = true) (hy : t.year < 9999) (d : Nat) {h : Nat} (hh : h ≤ 24) :
    ∃ u, Takes t d h u := by
  have vt := ((DT.valid_iff _).1 ht).1
  have yt := toOrd_year vt
  have h1 := daysBeforeYear_mono vt.1 (y' := t.year + 1) (Nat.lt_succ_self t.year)
  have h2 := daysBeforeYear_mono (y := t.year + 1) (y' := 10000) (by omega) (by have := vt.2.1; omega)
  have h3 : daysBeforeYear 10000 = maxOrdinal := by decide
  have h5 : 365 ≤ yearLen (isLeap (t.year + 1)) := by cases isLeap (t.year + 1) <;> decide
  obtain ⟨u, h6, h7⟩ := exists_minutes
    (n := (midnight t).toMinutes + (if d = t.day then 0 else 1440) + 60 * h)
    (by rw [midnight_minutes]; omega) (by rw [midnight_minutes]; split <;> omega)
  exact ⟨u, (takes_iff ht).2 ⟨h6, h7⟩⟩

theorem takes_year {t u : DT} (ht : t.valid = true) {d h : Nat} (hh : h ≤ 24) (hu : Takes t d h u) :
    u.valid = true ∧ t.year ≤ u.year ∧ u.year ≤ t.year + 1 := by
  obtain ⟨h1, h2⟩ := (takes_iff ht).1 hu
  exact ⟨h1, year_of_minutes ht h1 (by omega) (by split at h2 <;> omega)⟩

theorem hourBefore_exists {t : DT} (ht : t.valid = true) (hy : 2 ≤ t.year) : ∃ u, After t (-60) u := by
  have vt := ((DT.valid_iff _).1 ht).1
  have yt := toOrd_year vt
  have h1 := daysBeforeYear_mono (y := 1) (by omega) (show 1 < t.year by omega)
  have h5 : 365 ≤ yearLen (isLeap 1) := by decide
  have h6 := toMinutes_range ht
  have h7 : t.toMinutes = toOrd t.year t.month t.day * 1440 + t.hour * 60 + t.minute := rfl
  obtain ⟨u, h8, h9⟩ := exists_minutes (n := t.toMinutes - 60) (by omega) (by omega)
  exact ⟨u, (after_iff ht).2 ⟨h8, by omega⟩⟩

/-- The time of an FM change is not before the day of the report's period. -/
theorem at_year {w : FmGroup} {t u : DT} (ht : t.valid = true) (hu : w.At t u) :
    u.valid = true ∧ t.year ≤ u.year := by
  obtain ⟨b, hb, ha⟩ := hu
  have vb := (isTime_iff b).1 hb.exists_
  obtain ⟨h1, h2⟩ := (after_iff vb).1 ha
  have h3 := hb.notBefore
  have h4 := minutes_eq vb
  have h5 := minutes_eq (midnight_valid ht)
  refine ⟨h1, ?_⟩
  have vt := ((DT.valid_iff _).1 ht).1
  have vu := (DT.valid_iff _).1 h1
  have yt := toOrd_year vt
  have yu := toOrd_year vu.1
  have h6 := midnight_minutes t
  have hu' : u.toMinutes = toOrd u.year u.month u.day * 1440 + u.hour * 60 + u.minute := rfl
  have hh := vu.2.1
  have hm := vu.2.2
  rcases Nat.lt_or_ge u.year t.year with h | h
  · have := daysBeforeYear_mono vu.1.1 h
    omega
  · exact h

/-! ### Changes -/

/-- What an opening says about the period of a change of a report with the period `v`. -/
def KindSays (v : Valid) : ChangeKind → Valid → Prop
  | .fm g, p => g.At v.from_.time p.from_.time ∧ p.until_ = v.until_
  | _, p => p = v

theorem kind_new {k : ChangeKind} (hk : ∀ g, k = .fm g → g.WF) {v : Valid} (hv : v.from_.time.valid = true)
    (hy : v.from_.time.year < 9999) {m : Match} (hm : TafRegExp.CHANGE_INDICATOR.match k.group = some m) :
    ∃ i, TafIndicator.new (some m) v = .ok i ∧ i.code = some k.text ∧ KindSays v k i.valid := by
  have hs := RE.match_string hm
  have lit : startsWith k.group py!"FM" = false → (∃ tr, changeIndicator m = .ok (groupCode (some m.string), tr)) →
      shown k.group = k.text → ∃ i, TafIndicator.new (some m) v = .ok i ∧ i.code = some k.text ∧ i.valid = v := by
    rintro h1 ⟨tr, h2⟩ h3
    refine ⟨⟨groupCode (some m.string), tr, v⟩, ?_, ?_, rfl⟩
    · unfold TafIndicator.new
      simp only
      rw [if_neg (by rw [hs, h1]; simp), h2, ok_bind]
      rfl
    · rw [hs, ← h3, shown_eq]; rfl
  cases k with
  | tempo => exact lit (by decide) (changeIndicator_total (by rw [hs]; decide)) (by decide)
  | becmg => exact lit (by decide) (changeIndicator_total (by rw [hs]; decide)) (by decide)
  | prob f t =>
    cases f <;> cases t <;>
    exact lit (by decide) (changeIndicator_prob _ (by decide) m hs) (by decide)
  | fm g =>
    have hg := hk g rfl
    obtain ⟨m', h1, h2, -, h3⟩ := C45_fm v ((isTime_iff _).2 hv) g hg
    have : (ChangeKind.fm g).group = g.text := by
      simp [ChangeKind.group, ChangeKind.text, ChangeKind.words, join]
    rw [this, h1] at hm
    cases hm
    obtain ⟨u, hu⟩ := h3 hy
    obtain ⟨i, e1, e2, e3, e4⟩ := h2 u hu
    refine ⟨i, e1, ?_, ?_, e3⟩
    · rw [e4]; simp [ChangeKind.text, ChangeKind.words, join]
    · rw [e2]; exact hu

/-- What a change says about its period, before later changes end it. -/
def ChangeSays (v : Valid) (c : TafChange) (p : Valid) : Prop :=
  match c.valid with
  | none => KindSays v c.kind p
  | some w => Takes v.from_.time w.fromDay (digitsVal w.fromHour) p.from_.time ∧
      Takes v.from_.time w.untilDay (digitsVal w.untilHour) p.until_.time

theorem not_fm_text {k : ChangeKind} (h : ∀ g, k ≠ .fm g) : startsWith k.text py!"FM" = false := by
  cases k with
  | tempo => decide
  | becmg => decide
  | prob f t => cases f <;> cases t <;> decide
  | fm g => exact absurd rfl (h g)

theorem setValidPeriod_new {c : TafChange} (h : c.WF) {w : ValidGroup} (hw : c.valid = some w) {v : Valid}
    (hv : v.from_.time.valid = true) (hy : v.from_.time.year < 9999) {m : Match}
    (hm : TafRegExp.VALID.match w.text = some m) {i : TafIndicator} (hi : i.code = some c.kind.text) :
    ∃ i', i.setValidPeriod m v.from_ = .ok i' ∧ i'.code = some c.indicatorText ∧ ChangeSays v c i'.valid := by
  have hwf := h.valid w hw
  obtain ⟨m', h1, h2, h3⟩ := valid_match w hwf
  rw [hm] at h1
  cases h1
  have l1 : digitsVal w.fromHour ≤ 23 := hwf.2.1.le
  have l2 : digitsVal w.untilHour ≤ 24 := hwf.2.2.2.le
  obtain ⟨f, hf⟩ := takes_exists hv hy w.fromDay (h := digitsVal w.fromHour) (by omega)
  obtain ⟨u, hu⟩ := takes_exists hv hy w.untilDay l2
  obtain ⟨x, hx⟩ := Valid.fromTaf_exists h3 l1 l2 hv hf hu
  obtain ⟨t1, t2, t3⟩ := Valid.fromTaf_takes h3 hv hx
  have hno : ∀ g, c.kind ≠ .fm g := by
    intro g hg
    have := (h.fm g hg).2
    rw [hw] at this
    cases this
  refine ⟨⟨some (c.kind.text ++ (py!" " ++ fmtO x.code)), some (fmtO i.translation ++ py!" " ++ x.str), x⟩,
    ?_, ?_, ?_⟩
  · unfold TafIndicator.setValidPeriod
    rw [hx, ok_bind, hi]
    simp only
    rw [not_fm_text hno, if_neg (by simp)]
    rfl
  · have e : x.code = some w.text := by
      rw [t3, h2, groupCode_some, shown_self (ValidGroup.no_underscore hwf)]
    simp only [TafChange.indicatorText, hw, e]
    rfl
  · simp only [ChangeSays, hw]
    exact ⟨t1, t2⟩

theorem change_decodes {c : TafChange} (h : c.WF) {text : PyStr} (htext : splitC 32 text = changeGroupsOf c) :
    Decodes ChangeForecasted.handlers (splitC 32 text) (changePlacesOf c) ∧
    leftover (splitC 32 text) (assign ChangeForecasted.handlers 0 (splitC 32 text)) = [] := by
  have hf := (change_runs h).fits
  have hd := hf.decodes
  have hl := hf.leftover
  change Decodes _ ((changePlacesOf c).map (·.1)) (changePlacesOf c) at hd
  change leftover ((changePlacesOf c).map (·.1)) (assign _ 0 ((changePlacesOf c).map (·.1))) = [] at hl
  rw [changePlacesOf_groups, ← htext] at hd hl
  exact ⟨hd, hl⟩

theorem change_noNl {c : TafChange} (h : c.WF) : ∀ g i, (g, i) ∈ changePlacesOf c → 10 ∉ g := by
  intro g i hg
  have : g ∈ changeGroupsOf c := by
    rw [← changePlacesOf_groups]
    exact List.mem_map.2 ⟨_, hg, rfl⟩
  simp only [changeGroupsOf, condGroups, Conditions.sky, List.mem_cons, List.mem_append, List.mem_map,
    Option.mem_toList] at this
  rcases this with rfl | ⟨v, hv, rfl⟩ | ⟨w, hw, rfl⟩ | ⟨w, hw, rfl⟩ | ⟨w, hw, rfl⟩ | ⟨w, hw, rfl⟩
  · exact (kind_fact fun g hg => (h.fm g hg).1).2
  · exact (valid_fact (h.valid v hv)).2
  · exact (wind_fact (h.conds.wind w hw)).2
  · exact (vis_fact (h.conds.vis w hw).1).2
  · exact (weather_fact w).2
  · exact (layer_fact (h.conds.clouds.2 w hw)).2

/-- The methods succeed on the groups of a change. -/
theorem change_total {c : TafChange} (h : c.WF) {v : Valid} (hv : v.from_.time.valid = true)
    (hy : v.from_.time.year < 9999) {text : PyStr} (htext : splitC 32 text = changeGroupsOf c) (code : PyStr) :
    ∃ s', parseSection ChangeForecasted.handlers text (ChangeForecasted.start code v) = .ok (s', []) := by
  obtain ⟨hd, hl⟩ := change_decodes h htext
  have hT := change_taken h
  let P : Nat → ChangeForecasted → Prop := fun k p =>
    CoreRoom 4 7 k p.core ∧ p.valid = v ∧ (k = 1 → p.indicator.code = some c.kind.text)
  have h0 : P 0 (ChangeForecasted.start code v) := ⟨CoreRoom.new 4 7, rfl, fun h => by cases h⟩
  have mono : ∀ k s, (∀ g, (g, k) ∉ changePlacesOf c) → P k s → P (k + 1) s := by
    rintro k s hk ⟨h1, h2, h3⟩
    refine ⟨h1.mono, h2, fun he => ?_⟩
    have : k = 0 := by omega
    subst this
    exact absurd (mem_taken.2 (by rw [hT.indicator]; simp)) (hk c.kind.group)
  have late : ∀ {k : Nat} {p : ChangeForecasted} {x : Core}, 1 ≤ k → P k p → CoreRoom 4 7 (k + 1) x →
      P (k + 1) { p with core := x } := fun hk hp hx => ⟨hx, hp.2.1, fun h => by omega⟩
  have hweather : ∀ k, 4 ≤ k → k < 7 →
      HandlerOk (fun _ => False) P (fun i g => (g, i) ∈ changePlacesOf c) k
        ⟨MetarRegExp.WEATHER, ChangeForecasted.lift Core.handleWeather⟩ :=
    fun k h1 h2 g m s _ _ h => by
      refine ChangeForecasted.lift_post (P := CoreRoom 4 7 (k + 1)) (weather_post h.1 h1 h2) ?_
      exact fun _ hc => late (by omega) h hc
  have hcloud : ∀ k, 7 ≤ k → k < 11 →
      HandlerOk (fun _ => False) P (fun i g => (g, i) ∈ changePlacesOf c) k
        ⟨MetarRegExp.CLOUD, ChangeForecasted.lift Core.handleCloud⟩ :=
    fun k h1 h2 g m s _ hm h => ChangeForecasted.lift_post (cloud_post hm h.1 h1 h2) fun _ hc => late (by omega) h hc
  have hall : AllIdx (HandlerOk (fun _ => False) P fun i g => (g, i) ∈ changePlacesOf c) 0
      ChangeForecasted.handlers := by
    refine ⟨?_, ?_, ?_, ?_, hweather _ (by omega) (by omega), hweather _ (by omega) (by omega),
      hweather _ (by omega) (by omega), hcloud _ (by omega) (by omega), hcloud _ (by omega) (by omega),
      hcloud _ (by omega) (by omega), hcloud _ (by omega) (by omega), trivial⟩
    · intro g m s hg hm hp
      simp only [mem_taken] at hg
      rw [hT.indicator, List.mem_singleton] at hg
      subst hg
      obtain ⟨i, e1, e2, -⟩ := kind_new (fun g hg => (h.fm g hg).1) hv hy hm
      show Post _ _ (ChangeForecasted.handleIndicator m s)
      unfold ChangeForecasted.handleIndicator
      rw [hp.2.1, e1, ok_bind]
      exact Post.pure ⟨⟨hp.1.1.mono, hp.1.2.mono⟩, rfl, fun _ => e2⟩
    · intro g m s hg hm hp
      simp only [mem_taken] at hg
      rw [hT.valid] at hg
      simp only [List.mem_map, Option.mem_toList] at hg
      obtain ⟨w, hw, rfl⟩ := hg
      obtain ⟨i, e1, -⟩ := setValidPeriod_new h hw hv hy hm (hp.2.2 rfl)
      show Post _ _ (ChangeForecasted.handleValid m s)
      unfold ChangeForecasted.handleValid
      rw [hp.2.1, e1, ok_bind]
      exact Post.pure ⟨⟨hp.1.1.mono, hp.1.2.mono⟩, rfl, fun h => by cases h⟩
    · exact fun g m s _ hm hp => ChangeForecasted.lift_post (wind_post windLike_taf hm hp.1) fun _ hc =>
        late (by omega) hp hc
    · intro g m s hg hm hp
      simp only [mem_taken] at hg
      rw [hT.vis] at hg
      simp only [List.mem_map, Option.mem_toList] at hg
      obtain ⟨w, hw, rfl⟩ := hg
      obtain ⟨m', h1, -, h2⟩ := metarVis_match w (h.conds.vis w hw).1
      rw [hm] at h1
      cases h1
      obtain ⟨x, hx, -⟩ := h2 (h.conds.vis w hw).2.1
      refine ChangeForecasted.lift_post (prevailing_post (by rw [hx]; exact Raises.ok _) hp.1) fun _ hc =>
        late (by omega) hp hc
  obtain ⟨s', hs⟩ := parseSection_total' mono hall hd (fun _ _ hg => hg) h0
  exact ⟨s', by rw [hs]; exact congrArg (fun l => Except.ok (s', l)) hl⟩

/-- What a forecast says about the conditions. -/
structure CondSaid (G : Grammar VisGroup Visibility) (c : Conditions) (x : Core) : Prop where
  wind : Held tafWindGrammar MetarWind.none c.wind x.wind
  vis : Held G Visibility.none c.vis x.prevailing
  weathers : Each weatherGrammar.Says c.weathers x.weathers.list
  clouds : Each cloudGrammar.Says c.clouds x.clouds.list

/-- A change alone. -/
theorem change_new {c : TafChange} (h : c.WF) {v : Valid} (hv : v.from_.time.valid = true)
    (hy : v.from_.time.year < 9999) :
    ∃ x, ChangeForecasted.new (changeCode c) v = .ok x ∧ x.code = join [32] c.words ∧ x.unparsed = [] ∧
      x.indicator.code = some c.indicatorText ∧ ChangeSays v c x.indicator.valid ∧
      CondSaid visGrammar c.conds x.core := by
  have hcode : replace (changeCode c) py!"_" py!" " = join [32] c.words := by
    rw [← shown_eq]; exact change_shown h
  have htext : splitC 32 (ChangeForecasted.text (changeCode c)) = changeGroupsOf c := by
    unfold ChangeForecasted.text
    rw [hcode]
    exact change_groups h
  obtain ⟨s', hs'⟩ := change_total h hv hy htext (changeCode c)
  have hnew : ∃ x, ChangeForecasted.new (changeCode c) v = .ok x := by
    unfold ChangeForecasted.new
    refine ⟨{ s' with unparsed := s'.unparsed ++ [] }, ?_⟩
    have : parseSection ChangeForecasted.handlers (sanitizeVisibility (sanitizeChangeIndicator
        (replace (changeCode c) py!"_" py!" "))) { code := replace (changeCode c) py!"_" py!" ", valid := v, indicator := ⟨none, none, v⟩ } = .ok (s', []) := hs'
    simp only [TafIndicator.new, ok_bind]
    rw [this]
    rfl
  obtain ⟨x, hx⟩ := hnew
  obtain ⟨asg, p1, e1, e2, e3, e4, e5, e6, e7, e8⟩ := ChangeForecasted.new_reading hx
  obtain ⟨hd, hl⟩ := change_decodes h htext
  have hasg : asg = assign ChangeForecasted.handlers 0 (splitC 32 (ChangeForecasted.text (changeCode c))) :=
    firstApplicable_unique _ _ _ _ e1 (assign_length _ _ _) e2 (assign_firstApplicable _ _)
  have hcons : consumed (splitC 32 (ChangeForecasted.text (changeCode c))) asg = changePlacesOf c := by
    rw [(decodes_iff _ _ _).1 hd]
    exact (decodes_iff _ _ _).1 ⟨asg, e1, e2, rfl⟩
  rw [hcons] at e3 e4 e5
  have hT := change_taken h
  have hn := change_noNl h
  refine ⟨x, hx, by rw [e7, hcode], ?_, ?_⟩
  · rw [e6, hasg]; exact hl
  have hind : x.indicator.code = some c.indicatorText ∧ ChangeSays v c x.indicator.valid := by
    obtain ⟨t0, f1, f2⟩ := ChangeForecasted.indicator_reading e3 e4
    have e9 : x.indicator = p1.indicator := by rw [e6]
    rw [e9]
    rcases f1 with ⟨g, m, hg, hm, hi⟩ | ⟨hg, -⟩
    · rw [mem_taken, hT.indicator, List.mem_singleton] at hg
      subst hg
      obtain ⟨i, q1, q2, q3⟩ := kind_new (fun g hg => (h.fm g hg).1) hv hy hm
      have := Except.ok.inj (q1.symm.trans hi)
      subst this
      rcases f2 with ⟨g, m, hg, hm, hi⟩ | ⟨hg, hi⟩
      · rw [mem_taken, hT.valid, List.mem_map] at hg
        obtain ⟨w, hw, rfl⟩ := hg
        rw [Option.mem_toList] at hw
        obtain ⟨i, r1, r2, r3⟩ := setValidPeriod_new h hw hv hy hm q2
        have := Except.ok.inj (r1.symm.trans hi)
        rw [← this]
        exact ⟨r2, r3⟩
      · have hno : c.valid = none := by
          cases hc : c.valid with
          | none => rfl
          | some w => exact absurd (mem_taken.2 (by rw [hT.valid, hc]; simp)) (hg w.text)
        rw [hi]
        simp only [TafChange.indicatorText, ChangeSays, hno]
        exact ⟨q2, q3⟩
    · exact absurd (mem_taken.2 (by rw [hT.indicator]; simp)) (hg c.kind.group)
  refine ⟨hind.1, hind.2, ?_, ?_, ?_, ?_⟩
  · exact held_of (tafWind_reads.ifOk.at e5.wind e4 hn) hT.wind fun w hw => ⟨h.conds.wind w hw, h.wind w hw⟩
  · exact held_of (metarVis_reads.at e5.prevailing e4 hn) hT.vis fun w hw => (h.conds.vis w hw).1
  · have := weather_reads.ifOk.all e5.weathers.1 hn
    rw [ReadAll, hT.weathers] at this
    exact each_of this fun _ _ => trivial
  · have := cloud_reads.ifOk.all e5.clouds.1 hn
    rw [ReadAll, hT.clouds] at this
    exact each_of this h.conds.clouds.2

/-- When a change begins. -/
theorem says_from {c : TafChange} (h : c.WF) {v p : Valid} (hv : v.from_.time.valid = true)
    (hp : ChangeSays v c p) : p.from_.time.valid = true ∧ v.from_.time.year ≤ p.from_.time.year := by
  unfold ChangeSays at hp
  cases hc : c.valid with
  | none =>
    rw [hc] at hp
    simp only at hp
    cases hk : c.kind with
    | fm g => rw [hk] at hp; exact at_year hv hp.1
    | tempo => rw [hk] at hp; rw [show p = v from hp]; exact ⟨hv, Nat.le_refl _⟩
    | becmg => rw [hk] at hp; rw [show p = v from hp]; exact ⟨hv, Nat.le_refl _⟩
    | prob _ _ => rw [hk] at hp; rw [show p = v from hp]; exact ⟨hv, Nat.le_refl _⟩
  | some w =>
    rw [hc] at hp
    have := (h.valid w hc).2.1.le
    obtain ⟨h1, h2, -⟩ := takes_year hv (by omega) hp.1
    exact ⟨h1, h2⟩

/-- The state between two changes. -/
structure Between (v : Valid) (n : Nat) (r : Taf) : Prop where
  valid : r.valid = v
  max : r.changes.max = 8
  reset : r.changes.n = 0
  room : r.changes.list.length + n ≤ 8
  codes : ∀ x ∈ r.changes.list, x.indicator.code ≠ none ∧ x.unparsed = []
  unparsed : r.unparsed = []

theorem changeCode_ne (c : TafChange) : changeCode c ≠ [] := by
  obtain ⟨k, hk, rest, e⟩ := kind_opens c.kind
  unfold changeCode
  have : c.kind.group ≠ [] := by
    rw [← e]
    have : ∀ k ∈ tafWords, k ≠ [] := by decide
    simp [this k hk]
  cases c.rest with
  | nil => exact this
  | cons w ws => rw [join_cons_ne (by simp)]; simp

theorem changes_total {cs : List TafChange} (h : ∀ c ∈ cs, c.WF) {v : Valid} (hv : v.from_.time.valid = true)
    (hy : v.from_.time.year < 9999) (hy2 : 2 ≤ v.from_.time.year) {r : Taf} (hr : Between v cs.length r) :
    ∃ r', Taf.changesGo (cs.map changeCode) r = .ok r' ∧ Between v 0 r' := by
  induction cs generalizing r with
  | nil => exact ⟨r, rfl, hr⟩
  | cons c cs ih =>
    rw [List.map_cons, Taf.changesGo, if_pos (changeCode_ne c)]
    have hc := h c (by simp)
    obtain ⟨x, h1, h2, h3, h4, h5, -⟩ := change_new hc hv hy
    obtain ⟨f1, f2⟩ := says_from hc hv h5
    have hlen := hr.room
    rw [List.length_cons] at hlen
    have ht := (isTime_iff _).2 f1
    obtain ⟨g', hg⟩ := C46_succeeds r.changes x (by rw [hr.max]; omega) (fun y hy => (hr.codes y hy).1)
      ht (hourBefore_exists f1 (by omega))
    obtain ⟨e1, e2, e3, e4⟩ := C46_add _ _ _ hg ht
    have hold : ∀ y ∈ g'.list.dropLast, y.indicator.code ≠ none ∧ y.unparsed = [] := by
      intro y hy
      obtain ⟨k, hk, e⟩ := List.mem_iff_getElem.1 hy
      rw [List.length_dropLast] at hk
      rw [List.getElem_dropLast] at e
      have hk' : k < r.changes.list.length := by omega
      have hz := hr.codes _ (List.getElem_mem hk')
      obtain ⟨q1, q2⟩ := e4 k _ (List.getElem?_eq_getElem hk')
      have hy' : g'.list[k]? = some y := by rw [List.getElem?_eq_some_iff]; exact ⟨by omega, e⟩
      by_cases ho : Ending x ∧ OpenAt r.changes.list k r.changes.list.length
      · obtain ⟨t, -, e5⟩ := q1 ho
        rw [hy'] at e5
        rw [Option.some.inj e5]
        exact hz
      · have e5 := q2 ho
        rw [hy'] at e5
        rw [Option.some.inj e5]
        exact hz
    unfold Taf.handleChange
    rw [hr.valid, h1]
    simp only [ok_bind, hg, pure_bind]
    refine ih (fun c hc => h c (by simp [hc])) ⟨rfl, ?_, ?_, ?_, ?_, hr.unparsed⟩
    · show g'.max = 8
      rw [e1]; exact hr.max
    · show g'.n = 0
      rw [e1]; exact hr.reset
    · show (g'.list.dropLast ++ [_]).length + cs.length ≤ 8
      simp only [List.length_append, List.length_dropLast, List.length_cons, List.length_nil]
      omega
    · intro y hy
      rcases List.mem_append.1 hy with hy | hy
      · exact hold y hy
      · rw [List.mem_singleton.1 hy]
        exact ⟨by show x.indicator.code ≠ none; rw [h4]; simp, h3⟩

end Verif.Props
