import Verif.Lemmas.Rearranged
import Verif.Props.Own
import Verif.Props.Ambiguity

/-
C100: reports with the same groups in another order.
-/

namespace Verif.Props
open Spec

/-- C100, METAR. Two reports made of the same groups in whatever order, all of them decoded, and no word read
as different kinds of groups: the attributes are the same up to the order of the lists, and the kinds of the
groups come in the same order. -/
theorem C100_metar (db : Database) (clock : Clock) (code code' : PyStr) (a : Args) (r r' : Metar)
    (h : Metar.new db clock code a = .ok r) (h' : Metar.new db clock code' a = .ok r')
    (c c' : List (PyStr × Nat))
    (hc : Decodes (Metar.handlers db (clock 2) a) (metarGroups r.body) c)
    (hc' : Decodes (Metar.handlers db (clock 2) a) (metarGroups r'.body) c')
    (hl : Leaves (Metar.handlers db (clock 2) a) (metarGroups r.body) [])
    (hl' : Leaves (Metar.handlers db (clock 2) a) (metarGroups r'.body) [])
    (hp : (metarGroups r.body).Perm (metarGroups r'.body)) (hs : SameKinds metarOrder c c') :
    MetarRearranged c r r' ∧ kinds metarOrder c = kinds metarOrder c' := by
  have own := C99_metar db db clock clock code code' a a r r' h h' c c' hc hc'
  have own' := C99_metar_station db db clock clock code code' a a r r' h h' c c' hc hc'
  obtain ⟨t, -, -, e, -⟩ := Metar.new_decodes h hc
  obtain ⟨t', -, -, e', -⟩ := Metar.new_decodes h' hc'
  obtain ⟨o1, b1⟩ := decodes_order hc
  obtain ⟨o1', b1'⟩ := decodes_order hc'
  have hk := perm_kinds (((decodes_complete hc hl).trans hp).trans (decodes_complete hc' hl').symm) hs
  have one : ∀ k i, (∀ j, metarOrder[j]? = some k ↔ i ≤ j ∧ j ≤ i) → SameAt c c' i i :=
    fun k i hki => perm_short (taken_perm hk k hki) (taken_unique o1 i)
  exact ⟨{
    type := own.type (one .type 0 (block (by decide) (by decide)))
    station := own'.1 rfl (one .station 1 (block (by decide) (by decide)))
    time := own'.2 rfl rfl rfl (one .time 2 (block (by decide) (by decide)))
    modifier := own.modifier (one .modifier 3 (block (by decide) (by decide)))
    wind := own.wind (one .wind 4 (block (by decide) (by decide)))
    windVariation := own.windVariation (one .variation 5 (block (by decide) (by decide)))
    prevailing := own.prevailing (one .visibility 6 (block (by decide) (by decide)))
    minimum := own.minimum (one .minimum 7 (block (by decide) (by decide)))
    ranges := FromGroups.perm e.ranges.1 e'.ranges.1 (taken_perm hk .range (block (by decide) (by decide)))
    weathers := FromGroups.perm e.weathers.1 e'.weathers.1
      (taken_perm hk .weather (block (by decide) (by decide)))
    clouds := FromGroups.perm e.clouds.1 e'.clouds.1 (taken_perm hk .cloud (block (by decide) (by decide)))
    temperatures := own.temperatures (one .temperatures 18 (block (by decide) (by decide)))
    pressure := fun hn => own.pressure
      (perm_short (taken_perm hk .pressure (block (by decide) (by decide))) hn)
    recent := own.recent (one .recent 21 (block (by decide) (by decide)))
    windshears := FromGroups.perm e.windshears.1 e'.windshears.1
      (taken_perm hk .shear (block (by decide) (by decide)))
    sea := own.sea (one .sea 25 (block (by decide) (by decide)))
    runwayState := own.runwayState (one .runway 26 (block (by decide) (by decide))) },
    kinds_same MetarKind.ctorIdx (by intro a b; cases a <;> cases b <;> decide) (by decide) o1 o1'
      b1 b1' hk⟩

/-- C100, METAR. The words that no two kinds share (C79) are read as the same kind in both. -/
theorem C100_metar_kinds (db : Database) (clock : Clock) (code : PyStr) (a : Args) (r : Metar)
    (h : Metar.new db clock code a = .ok r) (gs : List PyStr) (c c' : List (PyStr × Nat))
    (hc : Decodes (Metar.handlers db (clock 2) a) (metarGroups r.body) c)
    (hc' : Decodes (Metar.handlers db (clock 2) a) gs c')
    (hs : ∀ w ∈ metarGroups r.body, ∀ k k', ¬ SharedMetar k k' w) : SameKinds metarOrder c c' := by
  obtain ⟨t, -, -, -, hn⟩ := Metar.new_decodes h hc
  intro w i j hi hj
  have hw : w ∈ metarGroups r.body := (kept_sublist hc).subset (List.mem_map_of_mem (f := (·.1)) hi)
  obtain ⟨k, hk, ha⟩ := taken_kind (κ := MetarKind) (ks := metarOrder) (p := MetarKind.pattern) rfl hc hi
  rw [hk, C79_metar_read db (clock 2) a gs c' hc' w j hj (hn w i hi) k ha
    fun k' => ⟨hs w hw k k', hs w hw k' k⟩]

/-- C100, TAF. -/
theorem C100_taf (db : Database) (clock : Clock) (code code' : PyStr) (a : Args) (r r' : Taf)
    (h : Taf.new db clock code a = .ok r) (h' : Taf.new db clock code' a = .ok r')
    (c c' : List (PyStr × Nat))
    (hc : Decodes (Taf.handlers db (clock 1) a) (bodyGroups r.body) c)
    (hc' : Decodes (Taf.handlers db (clock 1) a) (bodyGroups r'.body) c')
    (hl : Leaves (Taf.handlers db (clock 1) a) (bodyGroups r.body) [])
    (hl' : Leaves (Taf.handlers db (clock 1) a) (bodyGroups r'.body) [])
    (hp : (bodyGroups r.body).Perm (bodyGroups r'.body)) (hs : SameKinds tafOrder c c') :
    TafRearranged r r' ∧ kinds tafOrder c = kinds tafOrder c' := by
  have own := C99_taf db db clock clock code code' a a r r' h h' c c' hc hc'
  have own' := C99_taf_station db db clock clock code code' a a r r' h h' c c' hc hc'
  obtain ⟨t, v, -, -, -, e, -⟩ := Taf.new_decodes h hc
  obtain ⟨t', v', -, -, -, e', -⟩ := Taf.new_decodes h' hc'
  obtain ⟨o1, b1⟩ := decodes_order hc
  obtain ⟨o1', b1'⟩ := decodes_order hc'
  have hk := perm_kinds (((decodes_complete hc hl).trans hp).trans (decodes_complete hc' hl').symm) hs
  have one : ∀ k i, (∀ j, tafOrder[j]? = some k ↔ i ≤ j ∧ j ≤ i) → SameAt c c' i i :=
    fun k i hki => perm_short (taken_perm hk k hki) (taken_unique o1 i)
  have htime := own'.2 rfl rfl rfl (one .time 3 (block (by decide) (by decide)))
  obtain ⟨ts, e1, e2, e3⟩ := e.temperatures
  obtain ⟨ts', e1', e2', e3'⟩ := e'.temperatures
  rw [← htime.1] at e1'
  have hts := FromGroups.perm e1 e1' (taken_perm hk .temperature (block (by decide) (by decide)))
  exact ⟨{
    type := own.type (one .type 0 (block (by decide) (by decide)))
    modifier := own.modifier (one .amendment 1 (block (by decide) (by decide)))
    station := own'.1 rfl (one .station 2 (block (by decide) (by decide)))
    time := htime.1
    missing := own.missing (one .missing 4 (block (by decide) (by decide)))
    valid := htime.2 (one .valid 5 (block (by decide) (by decide)))
    cancelled := own.cancelled (one .cancelled 6 (block (by decide) (by decide)))
    wind := own.wind (one .wind 7 (block (by decide) (by decide)))
    prevailing := own.prevailing (one .visibility 8 (block (by decide) (by decide)))
    weathers := FromGroups.perm e.weathers.1 e'.weathers.1
      (taken_perm hk .weather (block (by decide) (by decide)))
    clouds := FromGroups.perm e.clouds.1 e'.clouds.1 (taken_perm hk .cloud (block (by decide) (by decide)))
    maxTemperatures := by
      rw [e2, e2']
      exact (hts.filter _).map _
    minTemperatures := by
      rw [e3, e3']
      exact (hts.filter _).map _ },
    kinds_same TafKind.ctorIdx (by intro a b; cases a <;> cases b <;> decide) (by decide) o1 o1'
      b1 b1' hk⟩

theorem trend_sameKinds {gs gs' : List PyStr} {c c' : List (PyStr × Nat)} (hn : ∀ g i, (g, i) ∈ c → 10 ∉ g)
    (hc : Decodes ChangePeriod.handlers gs c) (hc' : Decodes ChangePeriod.handlers gs' c') :
    SameKinds trendOrder c c' := by
  intro w i j hi hj
  obtain ⟨k, hk, ha⟩ := taken_kind (κ := TrendGroupKind) (ks := trendOrder) (p := TrendGroupKind.pattern)
    rfl hc hi
  rw [hk, (C79_trend w (hn w i hi)).2 _ _ _ k hc' hj ha]

/-- C100, trends of METARs. No word has two readings here. -/
theorem C100_trend (db db' : Database) (clock clock' : Clock) (code code' : PyStr) (a a' : Args) (r r' : Metar)
    (h : Metar.new db clock code a = .ok r) (h' : Metar.new db' clock' code' a' = .ok r')
    (p p' : ChangePeriod) (hp : p ∈ r.weatherTrends.list) (hp' : p' ∈ r'.weatherTrends.list)
    (text text' : PyStr) (ht : p.code = some text) (ht' : p'.code = some text') (c c' : List (PyStr × Nat))
    (hc : Decodes ChangePeriod.handlers (bodyGroups text) c)
    (hc' : Decodes ChangePeriod.handlers (bodyGroups text') c')
    (hl : Leaves ChangePeriod.handlers (bodyGroups text) [])
    (hl' : Leaves ChangePeriod.handlers (bodyGroups text') [])
    (hg : (bodyGroups text).Perm (bodyGroups text')) :
    ForecastRearranged p.core p'.core ∧ kinds trendOrder c = kinds trendOrder c' := by
  have own := (C99_trend db db' clock clock' code code' a a' r r' h h' p p' hp hp' text text' ht ht' c c'
    hc hc').1
  obtain ⟨ind, p1, i1, -, hr, hpe, e, htm, hn⟩ := Metar.trend_decodes h hp ht hc
  obtain ⟨ind', p1', i1', -, hr', hpe', e', htm', -⟩ := Metar.trend_decodes h' hp' ht' hc'
  obtain ⟨o1, b1⟩ := decodes_order hc
  obtain ⟨o1', b1'⟩ := decodes_order hc'
  have hs := trend_sameKinds hn hc hc'
  have hk := perm_kinds (((decodes_complete hc hl).trans hg).trans (decodes_complete hc' hl').symm) hs
  have one : ∀ k i, (∀ j, trendOrder[j]? = some k ↔ i ≤ j ∧ j ≤ i) → SameAt c c' i i :=
    fun k i hki => perm_short (taken_perm hk k hki) (taken_unique o1 i)
  exact ⟨{
    wind := own.wind (one .wind 3 (block (by decide) (by decide)))
    prevailing := own.prevailing (one .visibility 4 (block (by decide) (by decide)))
    weathers := FromGroups.perm e.weathers.1 e'.weathers.1
      (taken_perm hk .weather (block (by decide) (by decide)))
    clouds := FromGroups.perm e.clouds.1 e'.clouds.1 (taken_perm hk .cloud (block (by decide) (by decide))) },
    kinds_same TrendGroupKind.ctorIdx (by intro a b; cases a <;> cases b <;> decide) (by decide) o1 o1'
      b1 b1' hk⟩

/-- C100, trends of METARs made at the same time. The times of the change are the same, unless two period
groups of the same kind (two `FM`, `TL` or `AT`) are exchanged. -/
theorem C100_trend_periods (db db' : Database) (clock clock' : Clock) (code code' : PyStr) (a a' : Args)
    (r r' : Metar)
    (h : Metar.new db clock code a = .ok r) (h' : Metar.new db' clock' code' a' = .ok r')
    (p p' : ChangePeriod) (hp : p ∈ r.weatherTrends.list) (hp' : p' ∈ r'.weatherTrends.list)
    (text text' : PyStr) (ht : p.code = some text) (ht' : p'.code = some text') (c c' : List (PyStr × Nat))
    (hc : Decodes ChangePeriod.handlers (bodyGroups text) c)
    (hc' : Decodes ChangePeriod.handlers (bodyGroups text') c')
    (hl : Leaves ChangePeriod.handlers (bodyGroups text) [])
    (hl' : Leaves ChangePeriod.handlers (bodyGroups text') [])
    (hg : (bodyGroups text).Perm (bodyGroups text')) (htime : r.time.time = r'.time.time)
    (hk : ∀ w w' : PeriodGroup, w.WF → w'.WF → taken c 1 2 = [w.text, w'.text] → w.kind ≠ w'.kind) :
    SamePeriods p.indicator p'.indicator := by
  obtain ⟨ind, p1, i1, ho, hr, hpe, e, htm, hn⟩ := Metar.trend_decodes h hp ht hc
  obtain ⟨ind', p1', i1', ho', hr', hpe', e', htm', -⟩ := Metar.trend_decodes h' hp' ht' hc'
  rw [← htime] at i1' hr'
  rw [i1, Except.ok.injEq] at i1'
  subst i1'
  have hs := trend_sameKinds hn hc hc'
  have hq := perm_kinds (((decodes_complete hc hl).trans hg).trans (decodes_complete hc' hl').symm) hs
  have h0 : SameAt c c' 0 0 := perm_short (taken_perm hq TrendGroupKind.change (block (by decide) (by decide)))
    (taken_unique ho 0)
  have h12 : (taken c 1 2).Perm (taken c' 1 2) :=
    taken_perm hq TrendGroupKind.period (block (by decide) (by decide))
  have hlen : (taken c 1 2).length ≤ 2 := by
    rw [taken_split (mid := 1) ho (by omega) (by omega), List.length_append]
    have h1 := taken_unique ho 1
    have h2 : (taken c (1 + 1) 2).length ≤ 1 := taken_unique ho 2
    omega
  obtain ⟨t0, f0, ch⟩ := ChangePeriod.indicator_reading hr ho
  obtain ⟨t0', f0', ch'⟩ := ChangePeriod.indicator_reading hr' ho'
  have ht0 : t0 = t0' := FromGroup.same ho f0 f0' h0
  subst ht0
  have hi : p.indicator = p1.indicator := by rw [hpe]
  have hi' : p'.indicator = p1'.indicator := by rw [hpe']
  rw [hi, hi']
  clear hi hi' hpe hpe' hr hr' htm htm'
  revert ch ch'
  generalize p1.indicator = q1
  generalize p1'.indicator = q2
  intro ch ch'
  have groups : ∀ g ∈ taken c 1 2, 10 ∉ g := by
    intro g hg
    unfold taken at hg
    obtain ⟨x, hx, rfl⟩ := List.mem_map.1 hg
    exact hn x.1 x.2 (List.mem_filter.1 hx).1
  clear e e' hc hc' hq hs
  revert hk ch ch' h12 hlen groups
  generalize taken c 1 2 = l
  generalize taken c' 1 2 = l'
  intro hk h12 hlen ch ch' groups
  match l, hlen with
  | [], _ =>
    obtain rfl := List.nil_perm.1 h12
    cases ch
    cases ch'
    exact ⟨rfl, rfl, rfl, rfl, rfl, rfl⟩
  | [x], _ =>
    obtain rfl := List.perm_singleton.1 h12.symm
    have := chain_det (R := fun g (t t' : TrendIndicator) => ∃ m, MetarRegExp.TREND_TIME_PERIOD.match g = some m ∧
      TrendIndicator.addPeriod t m = .ok t') ?_ ch ch'
    · rw [this]
      exact ⟨rfl, rfl, rfl, rfl, rfl, rfl⟩
    · rintro g t a b ⟨m, e1, e2⟩ ⟨m', e1', e2'⟩
      rw [e1, Option.some.injEq] at e1'
      subst e1'
      rw [e2, Except.ok.injEq] at e2'
      exact e2'
  | [x, y], _ =>
    cases ch with
    | cons h1 ch =>
    cases ch with
    | cons h2 ch =>
    cases ch
    obtain ⟨m1, hm1, h1⟩ := h1
    obtain ⟨m2, hm2, h2⟩ := h2
    obtain ⟨w1, hw1, rfl⟩ := period_only hm1 (groups _ (by simp))
    obtain ⟨w2, hw2, rfl⟩ := period_only hm2 (groups _ (by simp))
    rcases perm_two h12 with rfl | rfl
    · cases ch' with
      | cons h1' ch' =>
      cases ch' with
      | cons h2' ch' =>
      cases ch'
      obtain ⟨m1', hm1', h1'⟩ := h1'
      obtain ⟨m2', hm2', h2'⟩ := h2'
      rw [hm1, Option.some.injEq] at hm1'
      rw [hm2, Option.some.injEq] at hm2'
      subst hm1' hm2'
      rw [h1, Except.ok.injEq] at h1'
      subst h1'
      rw [h2, Except.ok.injEq] at h2'
      rw [h2']
      exact ⟨rfl, rfl, rfl, rfl, rfl, rfl⟩
    · cases ch' with
      | cons h1' ch' =>
      cases ch' with
      | cons h2' ch' =>
      cases ch'
      obtain ⟨m1', hm1', h1'⟩ := h1'
      obtain ⟨m2', hm2', h2'⟩ := h2'
      rw [hm2, Option.some.injEq] at hm1'
      rw [hm1, Option.some.injEq] at hm2'
      subst hm1' hm2'
      exact addPeriod_comm hw1 hw2 (hk w1 w2 hw1 hw2 rfl) hm1 hm2 h1 h2 h1' h2'

/-- C100, changes of TAFs. -/
theorem C100_change (db db' : Database) (clock clock' : Clock) (code code' : PyStr) (a a' : Args) (r r' : Taf)
    (h : Taf.new db clock code a = .ok r) (h' : Taf.new db' clock' code' a' = .ok r')
    (x x' : ChangeForecasted) (hx : x ∈ r.changes.list) (hx' : x' ∈ r'.changes.list)
    (c c' : List (PyStr × Nat))
    (hc : Decodes ChangeForecasted.handlers (changeGroups x.code) c)
    (hc' : Decodes ChangeForecasted.handlers (changeGroups x'.code) c')
    (hl : Leaves ChangeForecasted.handlers (changeGroups x.code) [])
    (hl' : Leaves ChangeForecasted.handlers (changeGroups x'.code) [])
    (hg : (changeGroups x.code).Perm (changeGroups x'.code)) :
    ForecastRearranged x.core x'.core ∧ kinds changeOrder c = kinds changeOrder c' ∧
    (r.valid = r'.valid → x.indicator.code = x'.indicator.code ∧
      x.indicator.valid.from_ = x'.indicator.valid.from_ ∧
      ((∀ t, x.indicator.code = some t → startsWith t py!"FM" = false) → x.indicator = x'.indicator)) := by
  obtain ⟨own, own'⟩ := C99_change db db' clock clock' code code' a a' r r' h h' x x' hx hx' c c' hc hc'
  obtain ⟨p1, -, hr, -, e, -, hn⟩ := Taf.change_decodes h hx hc
  obtain ⟨p1', -, hr', -, e', -⟩ := Taf.change_decodes h' hx' hc'
  obtain ⟨o1, b1⟩ := decodes_order hc
  obtain ⟨o1', b1'⟩ := decodes_order hc'
  have hs : SameKinds changeOrder c c' := by
    intro w i j hi hj
    obtain ⟨k, hk, ha⟩ := taken_kind (κ := ChangeGroupKind) (ks := changeOrder) (p := ChangeGroupKind.pattern)
      rfl hc hi
    rw [hk, (C79_change w (hn w i hi)).2 _ _ _ k hc' hj ha]
  have hk := perm_kinds (((decodes_complete hc hl).trans hg).trans (decodes_complete hc' hl').symm) hs
  have one : ∀ k i, (∀ j, changeOrder[j]? = some k ↔ i ≤ j ∧ j ≤ i) → SameAt c c' i i :=
    fun k i hki => perm_short (taken_perm hk k hki) (taken_unique o1 i)
  refine ⟨{
    wind := own.wind (one .wind 2 (block (by decide) (by decide)))
    prevailing := own.prevailing (one .visibility 3 (block (by decide) (by decide)))
    weathers := FromGroups.perm e.weathers.1 e'.weathers.1
      (taken_perm hk .weather (block (by decide) (by decide)))
    clouds := FromGroups.perm e.clouds.1 e'.clouds.1 (taken_perm hk .cloud (block (by decide) (by decide))) },
    kinds_same ChangeGroupKind.ctorIdx (by intro a b; cases a <;> cases b <;> decide) (by decide) o1 o1'
      b1 b1' hk, fun hv => own' hv fun i hi => ?_⟩
  have : i = 0 ∨ i = 1 := by omega
  rcases this with rfl | rfl
  · exact one .change 0 (block (by decide) (by decide))
  · exact one .valid 1 (block (by decide) (by decide))

/-- C100 does not hold of the flight rules: they follow the first broken layer as written, not the lowest. -/
theorem C100_flight_rules : ∃ code code' r r', Metar.new sampleDb sampleClock code {} = .ok r ∧
    Metar.new sampleDb sampleClock code' {} = .ok r' ∧ r.core.clouds.list.Perm r'.core.clouds.list ∧
    r.core.prevailing = r'.core.prevailing ∧ r.unparsed = [] ∧ r'.unparsed = [] ∧
    r.core.flightRules ≠ r'.core.flightRules := by
  have key : (match Metar.new sampleDb sampleClock py!"METAR SKBO 151200Z 9999 OVC005 BKN020" {},
      Metar.new sampleDb sampleClock py!"METAR SKBO 151200Z 9999 BKN020 OVC005" {} with
    | .ok r, .ok r' => decide (r'.core.clouds.list = r.core.clouds.list.reverse ∧
        r.core.prevailing = r'.core.prevailing ∧ r.unparsed = [] ∧ r'.unparsed = [] ∧
        r.core.flightRules ≠ r'.core.flightRules)
    | _, _ => false) = true := by decide +kernel
  split at key
  · next r r' h h' =>
    obtain ⟨h1, h2⟩ := of_decide_eq_true key
    exact ⟨_, _, r, r', h, h', h1 ▸ (List.reverse_perm _).symm, h2⟩
  · cases key

/-! ### Instances -/

/-- Two METARs whose clouds and weather groups are written in another order. The flight rules follow the first
broken layer as written: the order of the layers is of consequence for them. -/
example : (match
      Metar.new sampleDb sampleClock py!"METAR SKBO 151200Z 09012KT 9999 -RA BR OVC005 BKN020 12/10 Q1013" {},
      Metar.new sampleDb sampleClock py!"METAR SKBO 151200Z 09012KT 9999 BR -RA BKN020 OVC005 12/10 Q1013" {} with
    | .ok r, .ok r' =>
      decide (r.core.clouds.list ≠ r'.core.clouds.list ∧ r.core.clouds.list = r'.core.clouds.list.reverse ∧
        r.core.weathers.list = r'.core.weathers.list.reverse ∧ r.core.wind = r'.core.wind ∧
        kinds metarOrder (decodedOf sampleDb sampleClock {} r) =
          kinds metarOrder (decodedOf sampleDb sampleClock {} r') ∧
        r.unparsed = [] ∧ r'.unparsed = [] ∧
        r.core.flightRules = some py!"IFR" ∧ r'.core.flightRules = some py!"MVFR")
    | _, _ => false) = true := by decide +kernel

/-- The hypothesis about the kinds is needed: `2000` and `4000` change places, and are the visibility in one
report and the minimum visibility in the other. -/
example : (match Metar.new sampleDb sampleClock py!"METAR SKBO 151200Z 09012KT 4000 2000 12/10 Q1013" {},
      Metar.new sampleDb sampleClock py!"METAR SKBO 151200Z 09012KT 2000 4000 12/10 Q1013" {} with
    | .ok r, .ok r' =>
      decide (r.core.prevailing ≠ r'.core.prevailing ∧ r.unparsed = [] ∧ r'.unparsed = [])
    | _, _ => false) = true := by decide +kernel

/-- Two groups of different kinds exchanged: one of them is left. -/
example : (match Metar.new sampleDb sampleClock py!"METAR SKBO 151200Z 09012KT 9999 BKN015 RA 12/10 Q1013" {} with
    | .ok r => decide (r.unparsed = [py!"RA"])
    | _ => false) = true := by decide +kernel

/-- Changes of TAFs with the same groups in another order. -/
example : (match Taf.new sampleDb sampleClock
      py!"TAF SKBO 151200Z 1512/1612 09012KT 9999 SCT020 TEMPO 1514/1516 3000 RA BR BKN010 OVC020" {},
      Taf.new sampleDb sampleClock
      py!"TAF SKBO 151200Z 1512/1612 09012KT 9999 SCT020 TEMPO 1514/1516 3000 BR RA OVC020 BKN010" {} with
    | .ok r, .ok r' =>
      match r.changes.list, r'.changes.list with
      | [x], [x'] => decide (x.indicator = x'.indicator ∧ x.core.weathers.list = x'.core.weathers.list.reverse ∧
          x.core.weathers.list ≠ x'.core.weathers.list ∧ x.unparsed = [] ∧ x'.unparsed = [])
      | _, _ => false
    | _, _ => false) = true := by decide +kernel

/-- A trend with its two periods in either order. -/
example : (match Metar.new sampleDb sampleClock py!"METAR SKBO 151200Z 09012KT 9999 BECMG FM1230 TL1330 3000 RA" {},
      Metar.new sampleDb sampleClock py!"METAR SKBO 151200Z 09012KT 9999 BECMG TL1330 FM1230 3000 RA" {} with
    | .ok r, .ok r' =>
      match r.weatherTrends.list, r'.weatherTrends.list with
      | [x], [x'] => decide (x.indicator ≠ x'.indicator ∧ x.indicator.from_ = x'.indicator.from_ ∧
          x.indicator.until_ = x'.indicator.until_ ∧ x.indicator.from_.time = ⟨2024, 6, 15, 12, 30⟩ ∧
          x.unparsed = [] ∧ x'.unparsed = [])
      | _, _ => false
    | _, _ => false) = true := by decide +kernel

end Verif.Props
