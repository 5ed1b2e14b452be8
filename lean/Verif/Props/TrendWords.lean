import Verif.Props.TafTotal
import Verif.Lemmas.TrendCut
import Verif.Lemmas.TrendPeriods
import Verif.Spec.TrendRecord

/-
The words of the trends of a METAR, the groups they are read as, and the positions of the groups.
-/

namespace Verif.Props
open Spec MetarRegExp

/-! ### Words -/

theorem minute_digits {s : PyStr} (h : MinuteDigits s) : ∀ c ∈ s, isDigit c = true := by
  obtain ⟨a, b, rfl, ha, hb, -⟩ := h
  intro c hc
  simp only [List.mem_cons, List.not_mem_nil, or_false] at hc
  rcases hc with rfl | rfl
  · exact AsciiDigit.isDigit ha
  · exact hb

theorem kind_two (k : PeriodKind) : k.text.length = 2 := by cases k <;> rfl

theorem period_take (p : PeriodGroup) : p.text.take 2 = p.kind.text := by
  have := kind_two p.kind
  rw [PeriodGroup.text, List.append_assoc, List.take_append_of_le_length (by omega), ← this, List.take_length]

theorem period_chars {p : PeriodGroup} (h : p.WF) : ∀ c ∈ p.text, calmChar c = true := by
  intro c hc
  simp only [PeriodGroup.text, List.mem_append] at hc
  rcases hc with (hc | hc) | hc
  · have : ∀ k : PeriodKind, ∀ c ∈ k.text, calmChar c = true := by intro k; cases k <;> decide
    exact this _ c hc
  · exact calmChar_digit (hour_digits h.1 c hc)
  · exact calmChar_digit (minute_digits h.2 c hc)

theorem period_ne (p : PeriodGroup) : p.text ≠ [] := by
  intro e
  have := congrArg List.length (period_take p)
  rw [e, kind_two] at this
  simp at this

theorem period_word {p : PeriodGroup} (h : p.WF) :
    (Unbarred p.text ∧ 95 ∉ p.text) ∧ ¬ Opens metarWords p.text := by
  refine ⟨calm_chars (period_chars h) (period_ne p), ?_⟩
  rintro ⟨kw, hk, u, hu⟩
  have key : ∀ kw ∈ metarWords, 2 ≤ kw.length ∧ ∀ k : PeriodKind, kw.take 2 ≠ k.text := by
    intro kw hk
    have : ∀ kw ∈ metarWords, 2 ≤ kw.length ∧ kw.take 2 ≠ py!"FM" ∧ kw.take 2 ≠ py!"TL" ∧
      kw.take 2 ≠ py!"AT" := by decide
    obtain ⟨h1, h2, h3, h4⟩ := this kw hk
    exact ⟨h1, fun k => by cases k <;> assumption⟩
  obtain ⟨k1, k2⟩ := key kw hk
  have := congrArg (List.take 2) hu
  rw [List.take_append_of_le_length k1, period_take] at this
  exact k2 _ this

theorem period_fact {p : PeriodGroup} (h : p.WF) : Fact TREND_TIME_PERIOD p.text := by
  obtain ⟨m, hm, -⟩ := period_match p h
  refine ⟨⟨m, hm⟩, fun h10 => ?_⟩
  have := period_chars h 10 h10
  exact absurd this (by decide)

theorem trend_rest {t : DT} {w : TrendRecord} (h : w.WF t) {v : PyStr} (hv : v ∈ w.rest) :
    (Unbarred v ∧ 95 ∉ v) ∧ ¬ Opens metarWords v := by
  rcases List.mem_append.1 hv with hv | hv
  · obtain ⟨p, hp, rfl⟩ := List.mem_map.1 hv
    exact period_word (h.periods.2 p hp).1
  · have := conds_calm h.conds hv
    exact ⟨⟨this.unbarred, this.under⟩, this.metar⟩

theorem kind_word (k : TrendKind) : (Unbarred k.word ∧ 95 ∉ k.word) ∧ Opens trendWords k.word := by
  have h1 : (∀ c ∈ k.word, calmChar c = true) ∧ k.word ≠ [] := by cases k <;> decide
  exact ⟨calm_chars h1.1 h1.2, by cases k <;> decide⟩

theorem trend_words {t : DT} {w : TrendRecord} (h : w.WF t) {v : PyStr} (hv : v ∈ w.words) :
    Unbarred v ∧ 95 ∉ v := by
  rcases List.mem_cons.1 hv with rfl | hv
  · exact (kind_word w.kind).1
  · exact (trend_rest h hv).1

/-- The part of a trend in the text of a report. -/
def trendPart (w : TrendRecord) : PyStr × List PyStr := (w.kind.word, w.rest)

theorem trend_part {t : DT} {w : TrendRecord} (h : w.WF t) : Part trendWords metarWords (trendPart w) :=
  ⟨(kind_word w.kind).1.1, (kind_word w.kind).2, fun _ hv => ⟨(trend_rest h hv).1.1, (trend_rest h hv).2⟩⟩

/-! ### Cutting -/

theorem rest_words {t : DT} {w : TrendRecord} (h : w.WF t) {v : PyStr} (hv : v ∈ w.rest) :
    (32 ∉ v ∧ 124 ∉ v) ∧ v ≠ py!"TEMPO" ∧ v ≠ py!"BECMG" := by
  obtain ⟨⟨hu, -⟩, ho⟩ := trend_rest h hv
  refine ⟨⟨fun h32 => ?_, hu.2⟩, ?_, ?_⟩
  · have := (hu.1.2 32 h32).1
    exact absurd this (by decide)
  · rintro rfl; exact ho (by decide)
  · rintro rfl; exact ho (by decide)

/-- The trends of a section. -/
theorem trends_cut {t : DT} {ws : List TrendRecord} (h : TrendsWF ws t) :
    (splitSentence (join [32] (ws.flatMap TrendRecord.words)) [py!"TEMPO", py!"BECMG"] 1 .both).filter
      (fun s : PyStr => s ≠ []) = ws.map fun w => join [32] w.words := by
  have hk : ∀ k : TrendKind, 32 ∉ k.word ∧ 124 ∉ k.word := by intro k; cases k <;> decide
  have ne : ∀ w : TrendRecord, join [32] w.words ≠ [] := by
    intro w
    have : w.kind.word ≠ [] := by cases w.kind <;> decide
    unfold TrendRecord.words
    cases w.rest with
    | nil => simpa [join] using this
    | cons v vs => rw [join_cons_ne (by simp)]; simp [this]
  match ws, h with
  | [], _ => decide +kernel
  | [w], h =>
    have hw := h.each w (by simp)
    rw [List.flatMap_cons, List.flatMap_nil, List.append_nil]
    rw [one_trend (by simp [TrendRecord.words])]
    · simp [ne]
    · intro v hv
      rcases List.mem_cons.1 hv with rfl | hv
      · exact hk _
      · exact (rest_words hw hv).1
    · intro v hv
      exact (rest_words hw hv).2
  | [w, v], h =>
    have hw := h.each w (by simp)
    have hv := h.each v (by simp)
    obtain ⟨s1, s2⟩ := h.second v (by simp)
    rw [List.flatMap_cons, List.flatMap_cons, List.flatMap_nil, List.append_nil]
    rw [TrendRecord.words, TrendRecord.words, two_trends (ws1 := w.kind.word :: w.rest) (by simp) s2]
    · have e1 := ne w
      have e2 := ne v
      unfold TrendRecord.words at e1 e2
      simp [e1, e2, TrendRecord.words]
    · cases hkind : v.kind with
      | nosig => exact absurd hkind s1
      | tempo => exact .inl rfl
      | becmg => exact .inr rfl
    · intro x hx
      simp only [List.cons_append, List.mem_cons, List.mem_append] at hx
      rcases hx with rfl | hx | hx
      · exact hk _
      · exact (rest_words hw hx).1
      · exact (rest_words hv hx).1
    · intro x hx
      rcases List.mem_append.1 hx with hx | hx
      · exact (rest_words hw hx).2
      · exact (rest_words hv hx).2
  | _ :: _ :: _ :: _, h =>
    have := h.count
    simp at this

/-! ### Groups -/

def trendGroupsOf (w : TrendRecord) : List PyStr :=
  w.kind.word :: (w.periods.map PeriodGroup.text ++ condGroups w.conds)

theorem period_digits (p : PeriodGroup) : p.text.all isDigit = false := by
  have h1 : p.text = p.kind.text ++ (p.hour ++ p.minute) := by simp [PeriodGroup.text]
  rw [h1, List.all_append]
  have : p.kind.text.all isDigit = false := by cases p.kind <;> decide +kernel
  rw [this]; rfl

theorem trend_groups {t : DT} {w : TrendRecord} (h : w.WF t) :
    bodyGroups (join [32] w.words) = trendGroupsOf w := by
  have hsolid : ∀ v ∈ w.words, Solid v := fun v hv c hc => (((trend_words h hv).1).1.2 c hc).1
  unfold bodyGroups TrendRecord.words
  rw [C55_visibility_words _ _ hsolid]
  have e : w.rest = (w.periods.map PeriodGroup.text ++ w.conds.wind.toList.map WindGroup.text) ++
      (w.conds.vis.toList.flatMap VisGroup.words ++ w.conds.sky) := by
    simp [TrendRecord.rest, Conditions.words]
  rw [e, joinPairs_words (n := 2) ?_ (fun g hg => (h.conds.vis g hg).1) (fun _ hw => sky_miles h.conds hw) h.goesOn]
  · simp [trendGroupsOf, condGroups]
  · intro v hv
    rcases List.mem_append.1 hv with hv | hv
    · obtain ⟨p, -, rfl⟩ := List.mem_map.1 hv
      exact period_digits p
    · simp only [List.mem_map, Option.mem_toList] at hv
      obtain ⟨g, hg, rfl⟩ := hv
      exact (wind_fact (h.conds.wind g hg)).noDigits' (by simp [tafDigitless])

/-! ### Positions -/

/-- The groups of a trend with their positions. -/
def trendRunsOf (w : TrendRecord) : List (Nat × List PyStr) :=
  [(0, [w.kind.word]), (1, w.periods.map PeriodGroup.text), (3, w.conds.wind.toList.map WindGroup.text),
   (4, w.conds.vis.toList.map VisGroup.text), (5, w.conds.weathers.map WeatherGroup.text),
   (8, w.conds.clouds.map Layer.text)]

def trendPlacesOf (w : TrendRecord) : List (PyStr × Nat) := (trendRunsOf w).flatMap fun x => place x.1 x.2

theorem trendPlacesOf_groups (w : TrendRecord) : (trendPlacesOf w).map (·.1) = trendGroupsOf w := by
  simp only [trendPlacesOf, trendRunsOf, List.flatMap_cons, List.flatMap_nil, List.map_append, place_map,
    trendGroupsOf, condGroups, Conditions.sky, List.append_nil, List.cons_append, List.nil_append]

def trendPatterns : List RE :=
  [CHANGE_INDICATOR, TREND_TIME_PERIOD, TREND_TIME_PERIOD, WIND, VISIBILITY, WEATHER, WEATHER, WEATHER, CLOUD,
   CLOUD, CLOUD, CLOUD]

theorem trendPatterns_eq : ChangePeriod.handlers.map Handler.regexp = trendPatterns := rfl

theorem wind_period {w : WindGroup} (h : w.WF) : Foreign [TREND_TIME_PERIOD] w.text :=
  (wind_fact h).foreign (by decide +kernel)

set_option maxRecDepth 100000 in
theorem vis_period {w : VisGroup} (h : w.WF) : Foreign [TREND_TIME_PERIOD, WIND] w.text :=
  (vis_fact h).foreign (by decide +kernel)

set_option maxRecDepth 100000 in
theorem weather_period (w : WeatherGroup) : Foreign [TREND_TIME_PERIOD, WIND, VISIBILITY] w.text := by
  obtain ⟨⟨m, hm⟩, hn⟩ := weather_fact w
  exact RE.apart_all' (by decide +kernel) hm hn

set_option maxRecDepth 100000 in
theorem layer_period {w : Layer} (h : w.WF) : Foreign [TREND_TIME_PERIOD, WIND, VISIBILITY, WEATHER] w.text :=
  (layer_fact h).foreign (by decide +kernel)

theorem trend_runs {t : DT} {w : TrendRecord} (h : w.WF t) : RunsAt ChangePeriod.handlers 0 (trendRunsOf w) := by
  have he := trendPatterns_eq
  have l1 : (w.periods.map PeriodGroup.text).length ≤ 2 := by simpa using h.periods.1
  have l5 : (w.conds.weathers.map WeatherGroup.text).length ≤ 3 := by simpa using h.conds.weathers.1
  have l8 : (w.conds.clouds.map Layer.text).length ≤ 4 := by simpa using h.conds.clouds.1
  refine ⟨Nat.le_refl _, ⟨fun k g hk => ?_, fun _ _ j h1 h2 => by omega⟩, ?_⟩
  · match k with
    | 0 =>
      cases hk
      refine accepts_at he rfl (Option.isSome_iff_exists.1 ?_)
      cases w.kind <;> decide +kernel
    | k + 1 => simp at hk
  rw [if_neg (by simp)]
  show RunsAt _ 1 _
  refine RunsAt.cons (b0 := 1) (Nat.le_refl _) (Nat.le_refl _) (runAt_of he (n := 2) (re := TREND_TIME_PERIOD) ?_
    (fun _ _ _ hq => absurd hq (by simp)) l1 rfl
    (qs := []) (by simp [trendPatterns])) l1 fun b h0 h1 => ?_
  · intro g hg
    obtain ⟨p, hp, rfl⟩ := List.mem_map.1 hg
    exact (period_fact (h.periods.2 p hp).1).1
  refine RunsAt.cons h0 h1 (runAt_of he (n := 1) (re := WIND) ?_ ?_ (opt_len _ _) rfl
    (qs := [TREND_TIME_PERIOD]) (by simp [trendPatterns])) (opt_len _ _) fun b h0 h1 => ?_
  · intro g hg
    simp only [List.mem_map, Option.mem_toList] at hg
    obtain ⟨w, hw, rfl⟩ := hg
    exact (wind_fact (h.conds.wind w hw)).1
  · intro g hg
    have hg := List.mem_of_mem_head? hg
    simp only [List.mem_map, Option.mem_toList] at hg
    obtain ⟨w, hw, rfl⟩ := hg
    exact wind_period (h.conds.wind w hw)
  refine RunsAt.cons h0 h1 (runAt_of he (n := 1) (re := VISIBILITY) ?_ ?_ (opt_len _ _) rfl
    (qs := [TREND_TIME_PERIOD, WIND]) (by simp [trendPatterns])) (opt_len _ _) fun b h0 h1 => ?_
  · intro g hg
    simp only [List.mem_map, Option.mem_toList] at hg
    obtain ⟨w, hw, rfl⟩ := hg
    exact (vis_fact (h.conds.vis w hw).1).1
  · intro g hg
    have hg := List.mem_of_mem_head? hg
    simp only [List.mem_map, Option.mem_toList] at hg
    obtain ⟨w, hw, rfl⟩ := hg
    exact vis_period (h.conds.vis w hw).1
  refine RunsAt.cons h0 h1 (runAt_of he (n := 3) (re := WEATHER) ?_ ?_ l5 rfl
    (qs := [TREND_TIME_PERIOD, WIND, VISIBILITY]) (by simp [trendPatterns])) l5 fun b h0 h1 => ?_
  · intro g hg
    obtain ⟨w, -, rfl⟩ := List.mem_map.1 hg
    exact (weather_fact w).1
  · intro g hg
    obtain ⟨w, -, rfl⟩ := List.mem_map.1 (List.mem_of_mem_head? hg)
    exact weather_period w
  refine RunsAt.cons h0 h1 (runAt_of he (n := 4) (re := CLOUD) ?_ ?_ l8 rfl
    (qs := [TREND_TIME_PERIOD, WIND, VISIBILITY, WEATHER]) (by simp [trendPatterns])) l8
    fun b h0 h1 => trivial
  · intro g hg
    obtain ⟨w, hw, rfl⟩ := List.mem_map.1 hg
    exact (layer_fact (h.conds.clouds.2 w hw)).1
  · intro g hg
    obtain ⟨w, hw, rfl⟩ := List.mem_map.1 (List.mem_of_mem_head? hg)
    exact layer_period (h.conds.clouds.2 w hw)

/-- The groups taken at the positions of a trend. -/
structure TrendTaken (c : List (PyStr × Nat)) (w : TrendRecord) : Prop where
  indicator : taken c 0 0 = [w.kind.word]
  periods : taken c 1 2 = w.periods.map PeriodGroup.text
  wind : taken c 3 3 = w.conds.wind.toList.map WindGroup.text
  vis : taken c 4 4 = w.conds.vis.toList.map VisGroup.text
  weathers : taken c 5 7 = w.conds.weathers.map WeatherGroup.text
  clouds : taken c 8 11 = w.conds.clouds.map Layer.text

theorem trend_taken {t : DT} {w : TrendRecord} (h : w.WF t) : TrendTaken (trendPlacesOf w) w := by
  have l1 : (w.periods.map PeriodGroup.text).length ≤ 2 := by simpa using h.periods.1
  have l2 := opt_len w.conds.wind WindGroup.text
  have l3 := opt_len w.conds.vis VisGroup.text
  have l4 : (w.conds.weathers.map WeatherGroup.text).length ≤ 3 := by simpa using h.conds.weathers.1
  have l7 : (w.conds.clouds.map Layer.text).length ≤ 4 := by simpa using h.conds.clouds.1
  have one : ∀ x : PyStr, [x].length = 1 := fun _ => rfl
  simp only [trendPlacesOf, trendRunsOf, List.flatMap_cons, List.flatMap_nil, List.append_nil]
  constructor <;>
  simp (disch := (first | omega | (simp only [one]; omega) | simp)) only [taken_append, taken_outside, taken_inside,
    List.nil_append, List.append_nil]

end Verif.Props
