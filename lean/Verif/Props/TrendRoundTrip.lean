import Verif.Props.TrendWords

/-
C67: the text of a METAR record with trends is parsed into a report that says what the record and
the trends state.
-/

namespace Verif.Props
open Spec MetarRegExp

/-! ### One trend -/

theorem window_exists {t : DT} (ht : t.valid = true) (hy : t.year < 9999) : ∃ e, t.addHours 2 = .ok e := by
  have vt := ((DT.valid_iff _).1 ht).1
  have yt := toOrd_year vt
  have h1 := daysBeforeYear_mono vt.1 (y' := t.year + 1) (Nat.lt_succ_self t.year)
  have h2 := daysBeforeYear_mono (y := t.year + 1) (y' := 10000) (by omega) (by have := vt.2.1; omega)
  have h3 : daysBeforeYear 10000 = maxOrdinal := by decide
  have h5 : 365 ≤ yearLen (isLeap (t.year + 1)) := by cases isLeap (t.year + 1) <;> decide
  have h7 : t.toMinutes = toOrd t.year t.month t.day * 1440 + t.hour * 60 + t.minute := rfl
  have v2 := ((DT.valid_iff _).1 ht).2
  obtain ⟨u, h8, h9⟩ := exists_minutes (n := t.toMinutes + 120) (by omega) (by omega)
  exact ⟨u, addMinutes_iff.2 ⟨h8, by omega⟩⟩

theorem opening_new {t : DT} {k : TrendKind} (he : ∃ e, t.addHours 2 = .ok e) {m : Match}
    (hm : CHANGE_INDICATOR.match k.word = some m) :
    ∃ i, TrendIndicator.new (some m) t = .ok i ∧ i.code = some k.word ∧ i.translation = some k.means := by
  obtain ⟨e, he⟩ := he
  have hs := RE.match_string hm
  have : changeIndicator m = .ok (some k.word, some k.means) := by
    unfold changeIndicator
    rw [hs]
    cases k <;> rfl
  refine ⟨_, by unfold TrendIndicator.new changeIndicatorO; simp only [this, he, ok_bind]; rfl, rfl, rfl⟩

theorem addPeriod_keeps {i i' : TrendIndicator} {m : Match} (h : i.addPeriod m = .ok i') :
    i'.translation = i.translation ∧ ∃ c, i.code = some c ∧ i'.code = some (c ++ 32 :: m.string) := by
  unfold TrendIndicator.addPeriod TrendIndicator.extendCode at h
  simp only [bind_ok] at h
  obtain ⟨cd, h1, mid, h2, hh, h3, mi, h4, x, h5, hs⟩ := h
  cases hc : i.code with
  | none => simp [hc] at h1
  | some c =>
    simp only [hc, Except.ok.injEq] at h1
    have : i'.translation = i.translation ∧ i'.code = some cd := by
      split at hs
      · simp only [pure_ok] at hs; rw [← hs]; exact ⟨rfl, rfl⟩
      · split at hs <;> simp only [pure_ok] at hs <;> rw [← hs] <;> exact ⟨rfl, rfl⟩
    exact ⟨this.1, c, rfl, by rw [this.2, ← h1]; rfl⟩

theorem periods_keep {gs : List PyStr} {i i' : TrendIndicator}
    (h : Spec.Chain (fun g t t' => ∃ m, TREND_TIME_PERIOD.match g = some m ∧
      TrendIndicator.addPeriod t m = .ok t') gs i i') {c : PyStr} (hc : i.code = some c) :
    i'.translation = i.translation ∧ i'.code = some (join [32] (c :: gs)) := by
  induction h generalizing c with
  | nil i => exact ⟨rfl, by rw [hc]; simp [join]⟩
  | @cons g gs i i1 i2 hs _ ih =>
    obtain ⟨m, hm, hs⟩ := hs
    obtain ⟨h1, c', h2, h3⟩ := addPeriod_keeps hs
    rw [hc] at h2
    cases h2
    obtain ⟨h4, h5⟩ := ih h3
    refine ⟨h4.trans h1, ?_⟩
    rw [h5, RE.match_string hm]
    cases gs with
    | nil => simp [join]
    | cons x gs => simp [join]

/-- The code of the instant a kind of period sets. -/
def _root_.Verif.TrendIndicator.codeOf (i : TrendIndicator) : PeriodKind → Option PyStr
  | .from_ => i.from_.code
  | .until_ => i.until_.code
  | .at_ => i.at_.bind (·.code)

theorem addPeriod_code {i i' : TrendIndicator} {v : PeriodGroup} (hv : v.WF) {m : Match}
    (hm : TREND_TIME_PERIOD.match v.text = some m) (h : i.addPeriod m = .ok i') (k : PeriodKind) :
    i'.codeOf k = if v.kind = k then some v.text else i.codeOf k := by
  obtain ⟨m', e1, e2, e3, -⟩ := period_match v hv
  rw [hm] at e1
  cases e1
  have h95 : groupCode (some m.string) = some v.text := by
    rw [e2]
    show some (replace v.text py!"_" py!" ") = _
    rw [← shown_eq]
    exact congrArg some (shown_self fun h95 => (period_word hv).1.2 h95)
  unfold TrendIndicator.addPeriod at h
  simp only [bind_ok, e3] at h
  obtain ⟨cd, -, mid, -, hh, -, mi, -, x, -, hs⟩ := h
  cases hk : v.kind with
  | from_ =>
    rw [hk, if_pos (by decide), pure_ok] at hs
    subst hs
    cases k <;> simp [TrendIndicator.codeOf, Time.ofDT, h95]
  | until_ =>
    rw [hk, if_neg (by decide), if_pos (by decide), pure_ok] at hs
    subst hs
    cases k <;> simp [TrendIndicator.codeOf, Time.ofDT, h95]
  | at_ =>
    rw [hk, if_neg (by decide), if_neg (by decide), pure_ok] at hs
    subst hs
    cases k <;> simp [TrendIndicator.codeOf, Time.ofDT, h95]

theorem periods_code {ps : List PeriodGroup} (hps : ∀ v ∈ ps, v.WF) {i i' : TrendIndicator}
    (h : Spec.Chain (fun g t t' => ∃ m, TREND_TIME_PERIOD.match g = some m ∧
      TrendIndicator.addPeriod t m = .ok t') (ps.map PeriodGroup.text) i i') (k : PeriodKind) :
    i'.codeOf k = match (ps.filter fun v => v.kind = k).getLast? with
      | none => i.codeOf k
      | some g => some g.text := by
  induction ps generalizing i with
  | nil => cases h; rfl
  | cons v ps ih =>
    cases h with
    | cons hs h =>
      obtain ⟨m, hm, hs⟩ := hs
      rw [ih (fun x hx => hps x (List.mem_cons_of_mem _ hx)) h, addPeriod_code (hps v (by simp)) hm hs k,
        List.filter_cons]
      by_cases hk : v.kind = k
      · rw [if_pos hk, if_pos (by simpa using hk)]
        cases hf : ps.filter fun v => decide (v.kind = k) with
        | nil => rfl
        | cons y ys => simp [List.getLast?_cons]
      · rw [if_neg hk, if_neg (by simpa using hk)]

/-- The last period of a kind, among the texts. -/
theorem last_of {w : TrendRecord} {t : DT} (h : w.WF t) (k : PeriodKind) :
    (w.last k = none → NoneOf k (w.periods.map PeriodGroup.text)) ∧
    ∀ g, w.last k = some g → LastOf k (w.periods.map PeriodGroup.text) g ∧ ∃ u, g.Within t u := by
  have inj : ∀ v v' : PeriodGroup, v.text = v'.text → v.kind = v'.kind := by
    intro v v' e
    have := congrArg (List.take 2) e
    rw [period_take, period_take] at this
    have key : ∀ a b : PeriodKind, a.text = b.text → a = b := by
      intro a b; cases a <;> cases b <;> decide
    exact key _ _ this
  have hwf := h.periods.2
  unfold TrendRecord.last
  generalize w.periods = ps at hwf
  refine ⟨fun hn v _ hv => ?_, fun g hg => ?_⟩
  · rw [List.getLast?_eq_none_iff, List.filter_eq_nil_iff] at hn
    obtain ⟨v', hv', e⟩ := List.mem_map.1 hv
    rw [inj v v' e.symm]
    simpa using hn v' hv'
  · induction ps with
    | nil => simp at hg
    | cons p ps ih =>
      have hps := ih fun q hq => hwf q (List.mem_cons_of_mem _ hq)
      rw [List.filter_cons] at hg
      by_cases hlast : (ps.filter fun q => q.kind = k).getLast? = some g
      · obtain ⟨⟨h1, h2, pre, post, e, h3⟩, hu⟩ := hps hlast
        exact ⟨⟨h1, h2, p.text :: pre, post, by rw [List.map_cons, e]; rfl, h3⟩, hu⟩
      · have hnil : ps.filter (fun q => decide (q.kind = k)) = [] := by
          cases hf : ps.filter (fun q => decide (q.kind = k)) with
          | nil => rfl
          | cons x xs =>
            rw [hf] at hg hlast
            split at hg
            · rw [List.getLast?_cons_cons] at hg; exact absurd hg hlast
            · exact absurd hg hlast
        rw [hnil] at hg
        split at hg
        · next hk =>
          simp at hg
          subst hg
          refine ⟨⟨(hwf p (by simp)).1, by simpa using hk, [], ps.map PeriodGroup.text, rfl, ?_⟩, (hwf p (by simp)).2⟩
          intro v _ hv
          obtain ⟨v', hv', e⟩ := List.mem_map.1 hv
          rw [inj v v' e.symm]
          rw [List.filter_eq_nil_iff] at hnil
          simpa using hnil v' hv'
        · simp at hg

theorem trend_decodes {t : DT} {w : TrendRecord} (h : w.WF t) :
    Decodes ChangePeriod.handlers (bodyGroups (join [32] w.words)) (trendPlacesOf w) ∧
    leftover (bodyGroups (join [32] w.words))
      (assign ChangePeriod.handlers 0 (bodyGroups (join [32] w.words))) = [] := by
  have hf := (trend_runs h).fits
  have hd := hf.decodes
  have hl := hf.leftover
  change Decodes _ ((trendPlacesOf w).map (·.1)) (trendPlacesOf w) at hd
  change leftover ((trendPlacesOf w).map (·.1)) (assign _ 0 ((trendPlacesOf w).map (·.1))) = [] at hl
  rw [trendPlacesOf_groups, ← trend_groups h] at hd hl
  exact ⟨hd, hl⟩

theorem trend_noNl {t : DT} {w : TrendRecord} (h : w.WF t) : ∀ g i, (g, i) ∈ trendPlacesOf w → 10 ∉ g := by
  intro g i hg
  have : g ∈ trendGroupsOf w := by
    rw [← trendPlacesOf_groups]
    exact List.mem_map.2 ⟨_, hg, rfl⟩
  simp only [trendGroupsOf, condGroups, Conditions.sky, List.mem_cons, List.mem_append, List.mem_map,
    Option.mem_toList] at this
  rcases this with rfl | ⟨v, hv, rfl⟩ | ⟨w, hw, rfl⟩ | ⟨w, hw, rfl⟩ | ⟨w, hw, rfl⟩ | ⟨w, hw, rfl⟩
  · cases w.kind <;> decide
  · exact (period_fact (h.periods.2 v hv).1).2
  · exact (wind_fact (h.conds.wind w hw)).2
  · exact (vis_fact (h.conds.vis w hw).1).2
  · exact (weather_fact w).2
  · exact (layer_fact (h.conds.clouds.2 w hw)).2

/-- The methods succeed on the groups of a trend. -/
theorem trend_total {t : DT} {w : TrendRecord} (h : w.WF t) (ht : t.valid = true)
    (he : ∃ e, t.addHours 2 = .ok e) {p : ChangePeriod} (hp : CoreRoom 5 8 0 p.core) (hpt : p.time = t) :
    ∃ s', parseSection ChangePeriod.handlers (sanitizeVisibility (join [32] w.words)) p = .ok (s', []) := by
  obtain ⟨hd, hl⟩ := trend_decodes h
  have hT := trend_taken h
  let P : Nat → ChangePeriod → Prop := fun k p =>
    CoreRoom 5 8 k p.core ∧ p.time = t ∧
      (1 ≤ k → p.indicator.code ≠ none ∧ p.indicator.init.time = t ∧ After t 120 p.indicator.end_.time)
  have h0 : P 0 p := ⟨hp, hpt, fun h => by omega⟩
  have mono : ∀ k s, (∀ g, (g, k) ∉ trendPlacesOf w) → P k s → P (k + 1) s := by
    rintro k s hk ⟨h1, h2, h3⟩
    refine ⟨h1.mono, h2, fun _ => ?_⟩
    cases k with
    | zero => exact absurd (mem_taken.2 (by rw [hT.indicator]; simp)) (hk w.kind.word)
    | succ k => exact h3 (by omega)
  have late : ∀ {k : Nat} {p : ChangePeriod} {x : Core}, 1 ≤ k → P k p → CoreRoom 5 8 (k + 1) x →
      P (k + 1) { p with core := x } := fun hk hp hx => ⟨hx, hp.2.1, fun _ => hp.2.2 hk⟩
  have hweather : ∀ k, 5 ≤ k → k < 8 →
      HandlerOk (fun _ => False) P (fun i g => (g, i) ∈ trendPlacesOf w) k
        ⟨WEATHER, ChangePeriod.lift Core.handleWeather⟩ :=
    fun k h1 h2 g m s _ _ h => by
      refine ChangePeriod.lift_post (P := CoreRoom 5 8 (k + 1)) (weather_post h.1 h1 h2) ?_
      exact fun _ hc => late (by omega) h hc
  have hcloud : ∀ k, 8 ≤ k → k < 12 →
      HandlerOk (fun _ => False) P (fun i g => (g, i) ∈ trendPlacesOf w) k
        ⟨CLOUD, ChangePeriod.lift Core.handleCloud⟩ :=
    fun k h1 h2 g m s _ hm h => ChangePeriod.lift_post (cloud_post hm h.1 h1 h2) fun _ hc => late (by omega) h hc
  have hperiod : ∀ k, 1 ≤ k → k ≤ 2 →
      HandlerOk (fun _ => False) P (fun i g => (g, i) ∈ trendPlacesOf w) k
        ⟨TREND_TIME_PERIOD, ChangePeriod.handleTimePeriod⟩ := by
    intro k h1 h2 g m s hg hm hp
    have hg : g ∈ taken (trendPlacesOf w) 1 2 := by
      unfold taken
      exact List.mem_map.2 ⟨(g, k), List.mem_filter.2 ⟨hg, by simp; omega⟩, rfl⟩
    rw [hT.periods, List.mem_map] at hg
    obtain ⟨q, hq, rfl⟩ := hg
    obtain ⟨hq1, u, hu⟩ := h.periods.2 q hq
    obtain ⟨r1, r2, r3⟩ := hp.2.2 h1
    obtain ⟨i', hi⟩ := addPeriod_exists hq1 hm r2 ht r3 r1 hu
    obtain ⟨s1, s2, -, -, -⟩ := addPeriod_step hq1 hm r2 ht r3 hi
    obtain ⟨-, c, -, hc⟩ := addPeriod_keeps hi
    show Post _ _ (ChangePeriod.handleTimePeriod m s)
    unfold ChangePeriod.handleTimePeriod
    rw [hi, ok_bind]
    exact Post.pure ⟨⟨hp.1.1.mono, hp.1.2.mono⟩, hp.2.1, fun _ => ⟨by rw [hc]; simp, by rw [s1]; exact r2,
      by rw [s2]; exact r3⟩⟩
  have hall : AllIdx (HandlerOk (fun _ => False) P fun i g => (g, i) ∈ trendPlacesOf w) 0
      ChangePeriod.handlers := by
    refine ⟨?_, hperiod _ (by omega) (by omega), hperiod _ (by omega) (by omega), ?_, ?_,
      hweather _ (by omega) (by omega), hweather _ (by omega) (by omega),
      hweather _ (by omega) (by omega), hcloud _ (by omega) (by omega), hcloud _ (by omega) (by omega),
      hcloud _ (by omega) (by omega), hcloud _ (by omega) (by omega), trivial⟩
    · intro g m s hg hm hp
      simp only [mem_taken] at hg
      rw [hT.indicator, List.mem_singleton] at hg
      subst hg
      obtain ⟨i, e1, e2, -⟩ := opening_new he hm
      obtain ⟨f1, f2, -⟩ := TrendIndicator.new_window ht e1
      show Post _ _ (ChangePeriod.handleTrendIndicator m s)
      unfold ChangePeriod.handleTrendIndicator
      rw [hp.2.1, e1, ok_bind]
      exact Post.pure ⟨⟨hp.1.1.mono, hp.1.2.mono⟩, rfl, fun _ => ⟨by rw [e2]; simp, f1, f2⟩⟩
    · exact fun g m s _ hm hp => ChangePeriod.lift_post (wind_post windLike_metar hm hp.1) fun _ hc =>
        late (by omega) hp hc
    · intro g m s hg hm hp
      simp only [mem_taken] at hg
      rw [hT.vis] at hg
      simp only [List.mem_map, Option.mem_toList] at hg
      obtain ⟨v, hv, rfl⟩ := hg
      obtain ⟨m', h1, -, h2⟩ := metarVis_match v (h.conds.vis v hv).1
      rw [hm] at h1
      cases h1
      obtain ⟨x, hx, -⟩ := h2 (h.conds.vis v hv).2.1
      refine ChangePeriod.lift_post (prevailing_post (by rw [hx]; exact Raises.ok _) hp.1) fun _ hc =>
        late (by omega) hp hc
  obtain ⟨s', hs⟩ := parseSection_total' mono hall hd (fun _ _ hg => hg) h0
  exact ⟨s', by rw [hs]; exact congrArg (fun l => Except.ok (s', l)) hl⟩

/-- A trend alone. -/
theorem trend_new {t : DT} {w : TrendRecord} (h : w.WF t) (ht : t.valid = true) (hy : t.year < 9999) :
    ∃ p, ChangePeriod.new (join [32] w.words) t = .ok p ∧ TrendSaid t w p := by
  have he := window_exists ht hy
  have hcode : replace (join [32] w.words) py!"_" py!" " = join [32] w.words := by
    rw [← shown_eq]
    refine shown_self fun h95 => ?_
    rcases mem_join h95 with h95 | ⟨v, hv, h95⟩
    · simp at h95
    · exact (trend_words h hv).2 h95
  have hnew : ∃ p, ChangePeriod.new (join [32] w.words) t = .ok p := by
    unfold ChangePeriod.new
    simp only [hcode]
    obtain ⟨e, he'⟩ := he
    have hi : ∃ i, TrendIndicator.new none t = .ok i := by
      unfold TrendIndicator.new changeIndicatorO
      simp only [he', ok_bind]
      exact ⟨_, rfl⟩
    obtain ⟨i, hi⟩ := hi
    rw [hi, ok_bind]
    obtain ⟨s', hs'⟩ := trend_total h ht ⟨e, he'⟩
      (p := { code := some (join [32] w.words), time := t, indicator := i }) (CoreRoom.new 5 8) rfl
    rw [hs', ok_bind]
    exact ⟨_, rfl⟩
  obtain ⟨p, hp⟩ := hnew
  refine ⟨p, hp, ?_⟩
  obtain ⟨ind, asg, p1, e0, e1, e2, e3, e4, e5, e6, e7, e8⟩ := ChangePeriod.new_reading hp
  rw [hcode] at e1 e2 e3 e4 e5 e6 e7
  obtain ⟨hd, hl⟩ := trend_decodes h
  unfold bodyGroups at hd hl
  have hasg : asg = assign ChangePeriod.handlers 0 (splitC 32 (sanitizeVisibility (join [32] w.words))) :=
    firstApplicable_unique _ _ _ _ e1 (assign_length _ _ _) e2 (assign_firstApplicable _ _)
  have hcons : consumed (splitC 32 (sanitizeVisibility (join [32] w.words))) asg = trendPlacesOf w := by
    rw [(decodes_iff _ _ _).1 hd]
    exact (decodes_iff _ _ _).1 ⟨asg, e1, e2, rfl⟩
  rw [hcons] at e3 e4 e5
  have hT := trend_taken h
  have hn := trend_noNl h
  obtain ⟨t0, f1, f2⟩ := ChangePeriod.indicator_reading e3 e4
  have e9 : p.indicator = p1.indicator := by rw [e6]
  rw [← e9, hT.periods] at f2
  obtain ⟨m, hm, hi⟩ : ∃ m, CHANGE_INDICATOR.match w.kind.word = some m ∧ TrendIndicator.new (some m) t = .ok t0 := by
    rcases f1 with ⟨g, m, hg, hm, hi⟩ | ⟨hg, -⟩
    · rw [mem_taken, hT.indicator, List.mem_singleton] at hg
      subst hg
      exact ⟨m, hm, hi⟩
    · exact absurd (mem_taken.2 (by rw [hT.indicator]; simp)) (hg w.kind.word)
  obtain ⟨i, q1, q2, q3⟩ := opening_new he hm
  have := Except.ok.inj (q1.symm.trans hi)
  subst this
  obtain ⟨w1, w2, w3, w4, w5⟩ := TrendIndicator.new_window ht q1
  obtain ⟨k1, k2⟩ := periods_keep f2 q2
  obtain ⟨c1, c2, c3, c4⟩ := period_chain f2 (fun g hg => by
    obtain ⟨v, hv, rfl⟩ := List.mem_map.1 hg
    exact (period_fact (h.periods.2 v hv).1).2) w1 ht w2
  have hcd := periods_code (fun v hv => (h.periods.2 v hv).1) f2
  have hcd0 : ∀ k, i.codeOf k = none := by
    intro k
    unfold TrendIndicator.new at q1
    simp only [bind_ok, pure_ok] at q1
    obtain ⟨⟨_, _⟩, -, _, -, rfl⟩ := q1
    cases k <;> rfl
  have hcd' : ∀ k, p.indicator.codeOf k = (w.last k).map PeriodGroup.text := by
    intro k
    rw [hcd k, hcd0 k]
    unfold TrendRecord.last
    cases (w.periods.filter fun v => v.kind = k).getLast? <;> rfl
  refine ⟨e7, k2, by rw [k1, q3], by rw [c1]; exact w1, by rw [c2]; exact w2, hcd' .from_, ?_, hcd' .until_, ?_, ?_,
    ?_, ?_, ?_, ?_, ?_⟩
  · have hl := last_of h .from_
    have hc := c4 .from_
    simp only [TrendIndicator.timeOf, Option.some.injEq, w3] at hc
    cases hw : w.last .from_ with
    | none => exact (hc.1 (hl.1 hw)).trans w1
    | some g =>
      obtain ⟨hg, u, hu⟩ := hl.2 g hw
      show g.Within t _
      rw [hc.2.1 g u hg hu]; exact hu
  · have hl := last_of h .until_
    have hc := c4 .until_
    simp only [TrendIndicator.timeOf, Option.some.injEq, w4] at hc
    cases hw : w.last .until_ with
    | none =>
      show After t 120 _
      rw [hc.1 (hl.1 hw)]; exact w2
    | some g =>
      obtain ⟨hg, u, hu⟩ := hl.2 g hw
      show g.Within t _
      rw [hc.2.1 g u hg hu]; exact hu
  · have hl := last_of h .at_
    have hc := c4 .at_
    simp only [TrendIndicator.timeOf, w5, Option.map_none, Option.map_eq_none_iff, Option.map_eq_some_iff] at hc
    cases hw : w.last .at_ with
    | none => exact hc.1 (hl.1 hw)
    | some g =>
      obtain ⟨hg, u, hu⟩ := hl.2 g hw
      obtain ⟨x, hx, rfl⟩ := hc.2.1 g u hg hu
      have := hcd' .at_
      rw [TrendIndicator.codeOf, hx, hw] at this
      exact ⟨x, hx, this, hu⟩
  · exact held_of (metarWind_reads.ifOk.at e5.wind e4 hn) hT.wind h.conds.wind
  · exact held_of (metarVis_reads.at e5.prevailing e4 hn) hT.vis fun v hv => (h.conds.vis v hv).1
  · have := weather_reads.ifOk.all e5.weathers.1 hn
    rw [ReadAll, hT.weathers] at this
    exact each_of this fun _ _ => trivial
  · have := cloud_reads.ifOk.all e5.clouds.1 hn
    rw [ReadAll, hT.clouds] at this
    exact each_of this h.conds.clouds.2
  · rw [e6, hasg]; exact hl

/-! ### All trends -/

theorem words_join_ne (w : TrendRecord) : join [32] w.words ≠ [] := by
  have : w.kind.word ≠ [] := by cases w.kind <;> decide
  unfold TrendRecord.words
  cases w.rest with
  | nil => simpa [join] using this
  | cons v vs => rw [join_cons_ne (by simp)]; simp [this]

theorem trends_total {t : DT} (ht : t.valid = true) (hy : t.year < 9999) {ts : List PyStr} {ws : List TrendRecord}
    (hts : ts.filter (fun s : PyStr => s ≠ []) = ws.map fun w => join [32] w.words) (hws : ∀ w ∈ ws, w.WF t)
    {r : Metar} (hr : r.time.time = t) (hroom : r.weatherTrends.list.length + ws.length ≤ r.weatherTrends.max) :
    ∃ r' ps, Metar.trendsGo ts r = .ok r' ∧ Each (TrendSaid t) ws ps ∧
      r'.weatherTrends = { r.weatherTrends with list := r.weatherTrends.list ++ ps } ∧
      r'.unparsed = r.unparsed := by
  induction ts generalizing ws r with
  | nil =>
    have : ws = [] := by
      cases ws with
      | nil => rfl
      | cons w ws => simp at hts
    subst this
    exact ⟨r, [], rfl, .nil, by simp, rfl⟩
  | cons x ts ih =>
    unfold Metar.trendsGo
    by_cases hx : x = []
    · rw [if_neg (by simpa using hx)]
      exact ih (by simpa [hx] using hts) hws hr hroom
    · rw [if_pos hx]
      rw [List.filter_cons, if_pos (by simpa using hx)] at hts
      cases ws with
      | nil => simp at hts
      | cons w ws =>
        simp only [List.map_cons, List.cons.injEq] at hts
        obtain ⟨p, hp, hs⟩ := trend_new (hws w (by simp)) ht hy
        have hadd : r.weatherTrends.add p = .ok { r.weatherTrends with list := r.weatherTrends.list ++ [p] } := by
          unfold GroupList.add
          rw [if_neg]
          simp only [List.length_cons] at hroom
          omega
        have hstep : Metar.handleWeatherTrend x r = .ok ({ r with
            weatherTrends := { r.weatherTrends with list := r.weatherTrends.list ++ [p] } }.concat p.str) := by
          unfold Metar.handleWeatherTrend
          rw [hr, hts.1, hp, ok_bind, hadd, ok_bind]
          rfl
        rw [hstep, ok_bind]
        obtain ⟨r', ps, e1, e2, e3, e4⟩ := ih (r := { r with
            weatherTrends := { r.weatherTrends with list := r.weatherTrends.list ++ [p] } }.concat p.str)
          hts.2 (fun v hv => hws v (List.mem_cons_of_mem _ hv)) hr (by
            show (r.weatherTrends.list ++ [p]).length + ws.length ≤ r.weatherTrends.max
            simp only [List.length_cons, List.length_append, List.length_nil] at hroom ⊢
            omega)
        refine ⟨r', p :: ps, e1, .cons hs e2, ?_, e4⟩
        rw [e3]
        show { r.weatherTrends with list := r.weatherTrends.list ++ [p] ++ ps } = _
        simp

theorem said_unparsed {t : DT} {ws : List TrendRecord} {ps : List ChangePeriod} (h : Each (TrendSaid t) ws ps) :
    ps.flatMap ChangePeriod.unparsed = [] := by
  induction h with
  | nil => rfl
  | cons h1 _ ih => rw [List.flatMap_cons, h1.unparsed, ih]; rfl

/-! ### The report -/

/-- The time of the report after the body of a record. -/
theorem record_time {db : Database} {now : Now} {a : Args} {y mo : Nat} {r : MetarRecord} (h : r.WF)
    (hy : a.year.getD now.year = (y : Int)) (hmo : a.month.getD now.month = (mo : Int)) (hy1 : 1000 ≤ y)
    (ht : IsTime ⟨y, mo, r.day, r.hour, r.minute⟩) {text : PyStr} (htext : splitC 32 text = groupsOf r)
    {raw : PyStr} {time : Time} {s' : Metar} {un : List PyStr}
    (hs : parseSection (Metar.handlers db now a) text (Metar.start raw time) = .ok (s', un)) :
    s'.time.time = ⟨y, mo, r.day, r.hour, r.minute⟩ := by
  have hdom : (1 ≤ r.day ∧ r.day ≤ 31) ∧ r.hour ≤ 23 ∧ r.minute ≤ 59 :=
    ⟨⟨ht.day.1, isTime_day ht⟩, ht.hour, ht.minute⟩
  have hf := (record_runs (db := db) (now := now) (a := a) h hdom).fits
  have hd := hf.decodes
  change Decodes _ ((placesOf r).map (·.1)) (placesOf r) at hd
  rw [placesOf_groups, ← htext] at hd
  have hT := record_taken h
  obtain ⟨asg, e1, e2, e3, e4, e5⟩ := parseSection_reading hs
  have hcons : consumed (splitC 32 text) asg = placesOf r := by
    rw [(decodes_iff _ _ _).1 hd]
    exact (decodes_iff _ _ _).1 ⟨asg, e1, e2, rfl⟩
  have hR := Metar.reading e3 e4 ⟨rfl, rfl⟩ ⟨rfl, rfl⟩ ⟨rfl, rfl⟩ ⟨rfl, rfl⟩
  rw [hcons] at hR
  rcases hR.time with ⟨g, m, hg, hm, hx⟩ | ⟨hg, -⟩
  · rw [mem_taken, hT.time, List.mem_singleton] at hg
    subst hg
    obtain ⟨c, e⟩ := time_reads hy hmo hy1 ht hm
    have := e.symm.trans hx
    rw [← Except.ok.inj this]
  · exact absurd (mem_taken.2 (by rw [hT.time]; simp)) (hg (timeText r.day r.hour r.minute))

/-- Any text that normalises to the words of a record and its trends, with a remark or without. -/
theorem trends_round_trip_code (db : Database) (clock : Clock) (a : Args) (w : MetarRecord)
    (trends : List TrendRecord) (remark : Option (PyStr × List PyStr)) (y mo : Nat) (hs : Sane clock)
    (hy : a.year.getD (clock 2).year = (y : Int)) (hmo : a.month.getD (clock 2).month = (mo : Int))
    (hy1 : 1000 ≤ y) (hy9 : y < 9999) (hw : w.WF) (ht : IsTime ⟨y, mo, w.day, w.hour, w.minute⟩)
    (htr : TrendsWF trends ⟨y, mo, w.day, w.hour, w.minute⟩)
    (hr : ∀ p ∈ remark, Part [py!"RMK"] metarWords p) (code : PyStr)
    (hcode : normalizeCode code = join [32] (metarText w.words (trends.map trendPart) remark)) :
    ∃ r, Metar.new db clock code a = .ok r ∧
      SaidBy db ⟨y, mo, w.day, w.hour, w.minute⟩ w r ∧
      Each (TrendSaid ⟨y, mo, w.day, w.hour, w.minute⟩) trends r.weatherTrends.list ∧ r.unparsed = [] := by
  have hdom : (1 ≤ w.day ∧ w.day ≤ 31) ∧ w.hour ≤ 23 ∧ w.minute ≤ 59 :=
    ⟨⟨ht.day.1, isTime_day ht⟩, ht.hour, ht.minute⟩
  have hwne : w.words ≠ [] := by simp [MetarRecord.words, MetarRecord.front]
  have hne : code ≠ [] := by
    rintro rfl
    have h0 : normalizeCode [] = [] := by decide
    rw [h0] at hcode
    exact record_text_ne w _ _ hcode.symm
  have hparts : ∀ p ∈ trends.map trendPart, Part trendWords metarWords p := by
    intro p hp
    obtain ⟨v, hv, rfl⟩ := List.mem_map.1 hp
    exact trend_part (htr.each v hv)
  obtain ⟨hn, h1, h2, -⟩ := metarSections_text w.words (trends.map trendPart) remark hwne (record_words hw hdom)
    hparts hr
  have hflat : ((trends.map trendPart).flatMap fun p => p.1 :: p.2) = trends.flatMap TrendRecord.words := by
    rw [List.flatMap_map]; rfl
  rw [hflat] at h2
  have hbt : splitC 32 (Metar.bodyText (normalizeCode code)) = groupsOf w := by
    unfold Metar.bodyText
    rw [hcode, h1]
    exact record_groups hw hdom
  have htv := (isTime_iff _).1 ht
  have key : ∃ r, Metar.new db clock code a = .ok r ∧
      Each (TrendSaid ⟨y, mo, w.day, w.hour, w.minute⟩) trends r.weatherTrends.list := by
    rw [Metar.new_eq db clock code a hne]
    obtain ⟨_, _, -, -, -, -, -, -, ht0⟩ := default_time hs 0 none none (by simp) (by simp)
    have hy2 := ht.year.2
    have hm2 := ht.month
    simp only at hy2 hm2
    obtain ⟨_, _, -, -, -, -, -, -, ht1⟩ := default_time hs 1 a.year a.month
      (fun x hx => by rw [hx] at hy; simp at hy; omega)
      (fun x hx => by rw [hx] at hmo; simp at hmo; omega)
    rw [ht0, ok_bind]
    have : Time.fromMetar (clock 1) none a.year a.month = _ := ht1
    rw [this, ok_bind]
    obtain ⟨s', hs'⟩ := record_total (db := db) hw hy hmo hy1 ht hbt (Metar.start_room (normalizeCode code) _)
    have hf := Metar.parse_frame hs'
    have htime := record_time hw hy hmo hy1 ht hbt hs'
    have htrend : s'.trend = join [32] (trends.flatMap TrendRecord.words) := by
      unfold Metar.trend
      rw [hf.sections]
      show (metarSections (normalizeCode code)).2.1 = _
      rw [hcode, h2]
    have hun : s'.unparsed = [] := hf.unparsed
    have hwt : s'.weatherTrends = GroupList.new 2 := hf.trends
    rw [hs', ok_bind]
    simp only
    rw [htrend]
    obtain ⟨r', ps, q1, q2, q3, q4⟩ := trends_total htv hy9 (trends_cut htr) htr.each
      (r := { s' with unparsed := s'.unparsed ++ [] }) htime (by
        rw [hwt]
        show 0 + trends.length ≤ 2
        have := htr.count
        omega)
    rw [q1, ok_bind]
    rw [hwt] at q3
    have hi := GroupList.iter_reset r'.weatherTrends (by rw [q3]; rfl)
    have hl : r'.weatherTrends.list = ps := by rw [q3]; rfl
    have hfin : r'.finish.unparsed = [] := by
      unfold Metar.finish
      simp only
      rw [hi, q4, hun]
      simp only [hl]
      rw [said_unparsed q2]
      rfl
    refine ⟨r'.finish, ?_, ?_⟩
    · rw [if_neg (fun h => h.1 hfin)]; rfl
    · unfold Metar.finish
      simp only
      rw [hi]
      simp only [hl]
      exact q2
  obtain ⟨r, hnew, heach⟩ := key
  have hb : r.body = join [32] w.words := by
    rw [(Metar.new_sections hnew).1, hcode, h1]
  obtain ⟨q1, q2⟩ := record_said hw hy hmo hy1 ht hnew hb
  exact ⟨r, hnew, q1, heach, by rw [q2, said_unparsed heach]⟩

/-- C67. The words of a METAR record and of its trends joined by blanks, with a remark or without,
are parsed without exception into a report that says exactly what the record states, whose trends
say exactly what the trends of the record state, one by one, and which has no unparsed group. -/
theorem C67_round_trip (db : Database) (clock : Clock) (a : Args) (w : MetarRecord)
    (trends : List TrendRecord) (remark : Option (PyStr × List PyStr)) (y mo : Nat) (hs : Sane clock)
    (hy : a.year.getD (clock 2).year = (y : Int)) (hmo : a.month.getD (clock 2).month = (mo : Int))
    (hy1 : 1000 ≤ y) (hy9 : y < 9999) (hw : w.WF) (ht : IsTime ⟨y, mo, w.day, w.hour, w.minute⟩)
    (htr : TrendsWF trends ⟨y, mo, w.day, w.hour, w.minute⟩)
    (hr : ∀ p ∈ remark, Part [py!"RMK"] metarWords p) :
    ∃ r, Metar.new db clock (join [32] (metarText w.words (trends.map trendPart) remark)) a = .ok r ∧
      SaidBy db ⟨y, mo, w.day, w.hour, w.minute⟩ w r ∧
      Each (TrendSaid ⟨y, mo, w.day, w.hour, w.minute⟩) trends r.weatherTrends.list ∧ r.unparsed = [] := by
  have hdom : (1 ≤ w.day ∧ w.day ≤ 31) ∧ w.hour ≤ 23 ∧ w.minute ≤ 59 :=
    ⟨⟨ht.day.1, isTime_day ht⟩, ht.hour, ht.minute⟩
  have hwne : w.words ≠ [] := by simp [MetarRecord.words, MetarRecord.front]
  obtain ⟨hn, -⟩ := metarSections_text w.words (trends.map trendPart) remark hwne (record_words hw hdom)
    (by
      intro p hp
      obtain ⟨v, hv, rfl⟩ := List.mem_map.1 hp
      exact trend_part (htr.each v hv)) hr
  exact trends_round_trip_code db clock a w trends remark y mo hs hy hmo hy1 hy9 hw ht htr hr _ hn

/-- C67. The same whatever white space separates and surrounds the words. -/
theorem C67_layout (db : Database) (clock : Clock) (a : Args) (w : MetarRecord)
    (trends : List TrendRecord) (remark : Option (PyStr × List PyStr)) (y mo : Nat) (hs : Sane clock)
    (hy : a.year.getD (clock 2).year = (y : Int)) (hmo : a.month.getD (clock 2).month = (mo : Int))
    (hy1 : 1000 ≤ y) (hy9 : y < 9999) (hw : w.WF) (ht : IsTime ⟨y, mo, w.day, w.hour, w.minute⟩)
    (htr : TrendsWF trends ⟨y, mo, w.day, w.hour, w.minute⟩)
    (hr : ∀ p ∈ remark, Part [py!"RMK"] metarWords p) (lead trail first : PyStr)
    (rest : List (PyStr × PyStr)) (hl : White lead) (htl : White trail)
    (hsep : ∀ p ∈ rest, Separator p.1)
    (hws : first :: rest.map (·.2) = metarText w.words (trends.map trendPart) remark) :
    ∃ r, Metar.new db clock (lead ++ layout first rest ++ trail) a = .ok r ∧
      SaidBy db ⟨y, mo, w.day, w.hour, w.minute⟩ w r ∧
      Each (TrendSaid ⟨y, mo, w.day, w.hour, w.minute⟩) trends r.weatherTrends.list ∧ r.unparsed = [] := by
  have hdom : (1 ≤ w.day ∧ w.day ≤ 31) ∧ w.hour ≤ 23 ∧ w.minute ≤ 59 :=
    ⟨⟨ht.day.1, isTime_day ht⟩, ht.hour, ht.minute⟩
  have hall : ∀ v ∈ first :: rest.map (·.2), Word v := by
    rw [hws]
    intro v hv
    simp only [metarText, List.mem_append, List.mem_flatMap, List.mem_map, Option.mem_toList] at hv
    rcases hv with (hv | ⟨_, ⟨x, hx, rfl⟩, hv⟩) | ⟨p, hp, hv⟩
    · exact (record_words hw hdom v hv).1.1
    · exact (trend_words (htr.each x hx) hv).1.1
    · obtain ⟨h1, -, h2⟩ := hr p hp
      rcases List.mem_cons.1 hv with rfl | hv
      · exact h1.1
      · exact (h2 v hv).1.1
  refine trends_round_trip_code db clock a w trends remark y mo hs hy hmo hy1 hy9 hw ht htr hr _ ?_
  rw [normalizeCode_layout lead trail first rest hl htl (hall _ (by simp)) fun p hp =>
    ⟨hsep p hp, hall _ (List.mem_cons_of_mem _ (List.mem_map_of_mem hp))⟩, hws]

/-! ### A report with two trends -/

def sampleTrends : List TrendRecord := [
  { kind := .tempo, periods := [⟨.from_, py!"13", py!"10"⟩, ⟨.until_, py!"14", py!"30"⟩],
    conds := { wind := some ⟨.tens 25, false, .digits py!"20", some (false, py!"35"), false⟩,
               vis := some (.range ⟨.exact, some py!"2", true, some (49, 50), .sm⟩),
               weathers := [⟨some .heavy, some .SH, some (.prec .RA)⟩],
               clouds := [⟨.bkn, .hundreds py!"008", .cb⟩] } },
  { kind := .becmg, periods := [⟨.at_, py!"14", py!"00"⟩],
    conds := { vis := some .cavok } }]

theorem sampleTrends_wf : TrendsWF sampleTrends ⟨2024, 6, 15, 12, 51⟩ where
  each := by
    intro w hw
    simp only [sampleTrends, List.mem_cons, List.not_mem_nil, or_false] at hw
    rcases hw with rfl | rfl
    · refine ⟨⟨by decide, fun p hp => ?_⟩, ⟨?_, ?_, ⟨by decide, by decide⟩, by decide, fun w hw => ?_⟩,
        fun _ => by decide⟩
      · simp only [List.mem_cons, List.not_mem_nil, or_false] at hp
        rcases hp with rfl | rfl
        · exact ⟨⟨⟨49, 51, rfl, by simp [AsciiDigit], by decide, by decide, by simp⟩,
            ⟨49, 48, rfl, by simp [AsciiDigit], by decide, by decide⟩⟩, ⟨2024, 6, 15, 13, 10⟩,
            ⟨(isTime_iff _).2 (by decide), by decide +kernel, by decide +kernel, by decide, by decide⟩⟩
        · exact ⟨⟨⟨49, 52, rfl, by simp [AsciiDigit], by decide, by decide, by simp⟩,
            ⟨51, 48, rfl, by simp [AsciiDigit], by decide, by decide⟩⟩, ⟨2024, 6, 15, 14, 30⟩,
            ⟨(isTime_iff _).2 (by decide), by decide +kernel, by decide +kernel, by decide, by decide⟩⟩
      · rintro _ ⟨⟩
        refine ⟨?_, ⟨by decide, by decide⟩, ?_⟩
        · show 25 ≤ 36; decide
        rintro p ds ⟨⟩
        exact ⟨by decide, by decide⟩
      · rintro _ ⟨⟩
        refine ⟨⟨?_, ?_⟩, by decide, by decide⟩
        · rintro _ ⟨⟩; decide
        · rintro _ _ ⟨⟩; decide
      · rw [List.mem_singleton.1 hw]; exact ⟨rfl, by decide⟩
    · refine ⟨⟨by decide, fun p hp => ?_⟩, ⟨by rintro _ ⟨⟩, ?_, ⟨by decide, by simp⟩, by decide, by simp⟩, ?_⟩
      · rw [List.mem_singleton.1 hp]
        exact ⟨⟨⟨49, 52, rfl, by simp [AsciiDigit], by decide, by decide, by simp⟩,
            ⟨48, 48, rfl, by simp [AsciiDigit], by decide, by decide⟩⟩, ⟨2024, 6, 15, 14, 0⟩,
            ⟨(isTime_iff _).2 (by decide), by decide +kernel, by decide +kernel, by decide, by decide⟩⟩
      · rintro _ ⟨⟩
        exact ⟨trivial, by decide, by decide⟩
      · rintro ⟨_, ⟨⟩, h⟩
        revert h
        decide
  count := by decide
  second := by
    intro w hw
    rw [List.mem_singleton.1 hw]
    exact ⟨by decide, by decide⟩

example : ∃ r, Metar.new sampleDb sampleClock
      py!"SPECI KJFK 151251Z AUTO 23015G27KT 200V260 1 1/2SM 0350NW R04R/M0600V1000FTU +TSRA BR BKN010CB OVC025 18/M02 Q1013 A2992 REFZRA WS ALL RWY WS RWY04R W19/S4 R88/CLRD// TEMPO FM1310 TL1430 25020G35KT 2 1/2SM +SHRA BKN008CB BECMG AT1400 CAVOK RMK AO2" {} = .ok r ∧
    SaidBy sampleDb ⟨2024, 6, 15, 12, 51⟩ sampleRecord r ∧
    Each (TrendSaid ⟨2024, 6, 15, 12, 51⟩) sampleTrends r.weatherTrends.list ∧ r.unparsed = [] := by
  have e : join [32] (metarText sampleRecord.words (sampleTrends.map trendPart) (some (py!"RMK", [py!"AO2"]))) =
      py!"SPECI KJFK 151251Z AUTO 23015G27KT 200V260 1 1/2SM 0350NW R04R/M0600V1000FTU +TSRA BR BKN010CB OVC025 18/M02 Q1013 A2992 REFZRA WS ALL RWY WS RWY04R W19/S4 R88/CLRD// TEMPO FM1310 TL1430 25020G35KT 2 1/2SM +SHRA BKN008CB BECMG AT1400 CAVOK RMK AO2" := by
    decide +kernel
  rw [← e]
  refine C67_round_trip sampleDb sampleClock {} sampleRecord sampleTrends _ 2024 6 sane_sample.1 rfl rfl (by decide)
    (by decide) sampleRecord_wf ?_ sampleTrends_wf ?_
  · exact ⟨by decide, by decide, ⟨by decide, 30, by decide, by decide⟩, by decide, by decide⟩
  · rintro _ ⟨⟩
    refine ⟨⟨⟨by decide, by decide⟩, by decide⟩, by decide, fun w hw => ?_⟩
    rw [List.mem_singleton.1 hw]
    exact ⟨⟨⟨by decide, by decide⟩, by decide⟩, by decide⟩

/-- C67, what the conditions on the trends are for: three trends raise an error, a second NOSIG and a
bare second TEMPO stay in the first trend, where they are not parsed. -/
theorem C67_counterexample :
    metarErr py!"METAR KJFK 151200Z TEMPO 5000 BECMG 9999 TEMPO 0800" = some .range ∧
    ((metarOk sampleClock py!"METAR KJFK 151200Z TEMPO 5000 NOSIG").map
      fun r => (r.weatherTrends.list.length, r.unparsed)) = some (1, [py!"NOSIG"]) ∧
    ((metarOk sampleClock py!"METAR KJFK 151200Z BECMG 5000 TEMPO").map
      fun r => (r.weatherTrends.list.length, r.unparsed)) = some (1, [py!"TEMPO"]) := by
  decide +kernel

end Verif.Props
