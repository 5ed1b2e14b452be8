import Verif.Lemmas.Codes
import Verif.Props.Exceptions

/-
C53: the code of every decoded group is the text of that group.
-/

namespace Verif.Props

/-- C53, METAR. The code of every attribute is the word of the body that its handler took (blanks
for underscores), and `None` when it took none (the type then is METAR). -/
theorem C53_metar_codes (db : Database) (clock : Clock) (code : PyStr) (a : Args) (r : Metar)
    (h : Metar.new db clock code a = .ok r) (c : List (PyStr × Nat))
    (hc : Spec.Decodes (Metar.handlers db (clock 2) a) (Spec.metarGroups r.body) c) :
    Spec.CodeFrom c 0 (some py!"METAR") r.type.code ∧
    Spec.CodeFrom c 1 none r.station.code ∧
    Spec.CodeFrom c 2 none r.time.code ∧
    Spec.CodeFrom c 3 none r.modifier.code ∧
    Spec.CodeFrom c 4 none r.core.wind.code ∧
    Spec.CodeFrom c 5 none r.windVariation.code ∧
    Spec.CodeFrom c 6 none r.core.prevailing.code ∧
    Spec.CodeFrom c 7 none r.minimumVisibility.code ∧
    r.runwayRanges.list.map RunwayRange.code = Spec.codes c 8 10 ∧
    r.core.weathers.list.map Weather.code = Spec.codes c 11 13 ∧
    r.core.clouds.list.map Cloud.code = Spec.codes c 14 17 ∧
    Spec.CodeFrom c 18 none r.temperatures.code ∧
    r.pressure.code = (Spec.codes c 19 20).getLast?.getD none ∧
    Spec.CodeFrom c 21 none r.recentWeather.code ∧
    r.windshears.list.map Windshear.code = Spec.codes c 22 24 ∧
    Spec.CodeFrom c 25 none r.seaState.code ∧
    Spec.CodeFrom c 26 none r.runwayState.code := by
  obtain ⟨time, ht, -, hR, -⟩ := Metar.new_decodes h hc
  have hd : (Metar.start (normalizeCode code) time).time.code = none := Time.fromMetar_code ht
  refine ⟨?_, ?_, ?_, ?_, ?_, ?_, ?_, ?_, ?_, ?_, ?_, ?_, ?_, ?_, ?_, ?_, ?_⟩
  · exact hR.type.code (code := ReportType.code) (by
      rintro m x ⟨⟩; exact groupCode_some _)
  · exact hR.station.code (code := Station.code) (fun m x hx => Station.new_code hx)
  · rw [← hd]
    exact hR.time.code (code := Time.code) (fun m x hx => Time.fromMetar_code hx)
  · exact hR.modifier.code (code := Modifier.code) (by
      rintro m x ⟨⟩; exact groupCode_some _)
  · exact hR.wind.code (code := MetarWind.code) (fun m x hx => MetarWind.new_code hx)
  · exact hR.windVariation.code (code := WindVariation.code) (fun m x hx => WindVariation.new_code hx)
  · exact hR.prevailing.code (code := Visibility.code) (fun m x hx => prevailing_code hx)
  · exact hR.minimum.code (code := Visibility.code) (fun m x hx => minimumVisibility_code hx)
  · exact hR.ranges.1.code (fun m x hx => RunwayRange.new_code hx)
  · exact hR.weathers.1.code (by rintro m x ⟨⟩; exact groupCode_some _)
  · exact hR.clouds.1.code (fun m x hx => Cloud.fromMetar_code hx)
  · exact hR.temperatures.code (code := Temperatures.code) (fun m x hx => Temperatures.new_code hx)
  · exact hR.pressure.code (code := MetarPressure.code) (fun m x hx => MetarPressure.new_code hx)
  · exact hR.recent.code (code := RecentWeather.code) (by rintro m x ⟨⟩; exact groupCode_some _)
  · exact hR.windshears.1.code (by rintro m x ⟨⟩; exact Windshear.new_code m)
  · exact hR.sea.code (code := SeaState.code) (fun m x hx => SeaState.new_code hx)
  · exact hR.runwayState.code (code := RunwayState.code) (by
      rintro m x ⟨⟩; exact groupCode_some _)

/-- The second letter of a temperature group says whether it is a maximum. -/
theorem temperature_kind {time : DT} {g : PyStr} {m : Match} {x : Bool × TafTemperature}
    (hm : TafRegExp.TEMPERATURE.match g = some m) (hx : tafTagged time m = .ok x) :
    (g[1]? = some 88 ∧ x.1 = true ∨ g[1]? = some 78 ∧ x.1 = false) ∧
      x.2.code = some (Spec.shown g) := by
  unfold tafTagged at hx
  cases ht : TafTemperature.new m time with
  | error e => rw [ht] at hx; cases hx
  | ok t =>
    rw [ht] at hx
    cases hx
    refine ⟨?_, by rw [TafTemperature.new_code ht, RE.match_string hm]⟩
    have hg : m.group .type = some ((g.drop 1).take 1) := by
      obtain ⟨y, hy, h1, -, h3, -⟩ := RE.match_path (by decide +kernel) hm
      have hall : ∀ y ∈ TafRegExp.TEMPERATURE.paths0, y.2.2.lookup .type = some (1, 2) := by
        decide +kernel
      unfold Match.group
      rw [h3, hall y hy, h1]
      rfl
    obtain ⟨ks, hk, t', h1, h2⟩ := RE.groupIn_some (n := .type)
      (shapes := [litShape py!"X", litShape py!"N"]) (by decide +kernel) hm
    have key : ∀ a : Nat, (g.drop 1).take 1 = [a] → g[1]? = some a := by
      intro a ha
      have := congrArg (·[0]?) ha
      simpa using this
    rw [hg] at h1
    cases h1
    simp only [List.mem_cons, List.not_mem_nil, or_false] at hk
    rcases hk with rfl | rfl <;> rw [hasShape_lit_iff] at h2
    · exact .inl ⟨key _ h2, by rw [hg, h2]; rfl⟩
    · exact .inr ⟨key _ h2, by rw [hg, h2]; rfl⟩

/-- C53, TAF. The temperatures of the two lists together carry the codes of the temperature groups:
the list of maxima those that were read as `TX`, the list of minima the others, each in order. -/
theorem C53_taf_codes (db : Database) (clock : Clock) (code : PyStr) (a : Args) (r : Taf)
    (h : Taf.new db clock code a = .ok r) (c : List (PyStr × Nat))
    (hc : Spec.Decodes (Taf.handlers db (clock 1) a) (Spec.bodyGroups r.body) c) :
    Spec.CodeFrom c 0 (some py!"TAF") r.type.code ∧
    Spec.CodeFrom c 1 none r.modifier.code ∧
    Spec.CodeFrom c 2 none r.station.code ∧
    Spec.CodeFrom c 3 none r.time.code ∧
    Spec.CodeFrom c 4 none r.missing.mod.code ∧
    Spec.CodeFrom c 5 none r.valid.code ∧
    Spec.CodeFrom c 6 none r.cancelled.code ∧
    Spec.CodeFrom c 7 none r.core.wind.code ∧
    Spec.CodeFrom c 8 none r.core.prevailing.code ∧
    r.core.weathers.list.map Weather.code = Spec.codes c 9 11 ∧
    r.core.clouds.list.map Cloud.code = Spec.codes c 12 15 ∧
    r.maxTemperatures.list.map TafTemperature.code = ((Spec.taken c 16 19).filter fun g =>
      (g[1]?).getD 0 = 88).map (fun g => some (Spec.shown g)) ∧
    r.minTemperatures.list.map TafTemperature.code = ((Spec.taken c 16 19).filter fun g =>
      (g[1]?).getD 0 = 78).map (fun g => some (Spec.shown g)) := by
  obtain ⟨time, v, ht, hv, -, hR, -⟩ := Taf.new_decodes h hc
  have hd : (Taf.start (normalizeCode code) time v).time.code = none := Time.new_code ht
  have hv : (Taf.start (normalizeCode code) time v).valid.code = none := Valid.fromTaf_code hv
  refine ⟨?_, ?_, ?_, ?_, ?_, ?_, ?_, ?_, ?_, ?_, ?_, ?_⟩
  · exact hR.type.code (code := ReportType.code) (by
      rintro m x ⟨⟩; exact groupCode_some _)
  · exact hR.modifier.code (code := Modifier.code) (by
      rintro m x ⟨⟩; exact groupCode_some _)
  · exact hR.station.code (code := Station.code) (fun m x hx => Station.new_code hx)
  · rw [← hd]
    exact hR.time.code (code := Time.code) (fun m x hx => Time.fromMetar_code hx)
  · exact hR.missing.code (code := fun x => x.mod.code) (by
      rintro m x ⟨⟩; exact groupCode_some _)
  · rw [← hv]
    exact hR.valid.code (code := Valid.code) (fun m x hx => Valid.fromTaf_code hx)
  · exact hR.cancelled.code (code := Cancelled.code) (by
      rintro m x ⟨⟩; exact groupCode_some _)
  · exact hR.wind.code (code := MetarWind.code) (fun m x hx => MetarWind.new_code hx)
  · exact hR.prevailing.code (code := Visibility.code) (fun m x hx => prevailing_code hx)
  · exact hR.weathers.1.code (by rintro m x ⟨⟩; exact groupCode_some _)
  · exact hR.clouds.1.code (fun m x hx => Cloud.fromMetar_code hx)
  · obtain ⟨ts, h1, h2, h3⟩ := hR.temperatures
    rw [h2, h3]
    unfold Spec.FromGroups at h1
    generalize Spec.taken c 16 19 = l at h1
    clear hc h2 h3
    induction h1 with
    | nil => exact ⟨rfl, rfl⟩
    | @cons g x gs xs hx _ ih =>
      obtain ⟨m, hm, hx⟩ := hx
      have ⟨e1, e2⟩ := temperature_kind hm hx
      rw [List.filter_cons, List.filter_cons, List.filter_cons, List.filter_cons]
      rcases e1 with ⟨e3, e4⟩ | ⟨e3, e4⟩
      · simp only [e3, e4, Option.getD_some, decide_true, if_true, List.map_cons, ih.1, ih.2, e2,
          Bool.not_true, Bool.false_eq_true, if_false]
        simp
      · simp only [e3, e4, Option.getD_some, decide_true, if_true, List.map_cons, ih.1, ih.2, e2,
          Bool.not_false, Bool.false_eq_true, if_false]
        simp

/-- The code of a change indicator: the word of the indicator and those of the periods. -/
def indicatorCode : List PyStr → Option PyStr
  | [] => none
  | g :: gs => some (gs.foldl (fun t p => t ++ 32 :: p) (Spec.shown g))

/-- C53, METAR trends. The code of a trend is its text; the code of its change indicator is the
word of the indicator followed by those of its periods, separated by blanks. -/
theorem C53_trend_codes (db : Database) (clock : Clock) (code : PyStr) (a : Args) (r : Metar)
    (h : Metar.new db clock code a = .ok r) (p : ChangePeriod) (hp : p ∈ r.weatherTrends.list)
    (text : PyStr) (ht : p.code = some text) (c : List (PyStr × Nat))
    (hc : Spec.Decodes ChangePeriod.handlers (Spec.bodyGroups text) c) :
    ((∃ g, (g, 0) ∈ c ∧ p.indicator.code = indicatorCode (g :: Spec.taken c 1 2)) ∨
      ((∀ g, (g, 0) ∉ c) ∧ Spec.taken c 1 2 = [] ∧ p.indicator.code = none)) ∧
    Spec.CodeFrom c 3 none p.core.wind.code ∧
    Spec.CodeFrom c 4 none p.core.prevailing.code ∧
    p.core.weathers.list.map Weather.code = Spec.codes c 5 7 ∧
    p.core.clouds.list.map Cloud.code = Spec.codes c 8 11 := by
  obtain ⟨ind, p1, hi, ho, hrun, hp1, hR, -, -⟩ := Metar.trend_decodes h hp ht hc
  refine ⟨?_, ?_, ?_, ?_, ?_⟩
  · obtain ⟨t0, h1, h2⟩ := ChangePeriod.indicator_reading hrun ho
    have hp1 : p.indicator = p1.indicator := by rw [hp1]
    rw [hp1]
    have key : ∀ l : List PyStr, ∀ t t' : TrendIndicator,
        Spec.Chain (fun g t t' => ∃ m, MetarRegExp.TREND_TIME_PERIOD.match g = some m ∧
          TrendIndicator.addPeriod t m = .ok t') l t t' →
        (∀ s, t.code = some s → t'.code = some (l.foldl (fun t p => t ++ 32 :: p) s)) ∧
        (t.code = none → l = [] ∧ t'.code = none) := by
      intro l t t' hch
      induction hch with
      | nil => exact ⟨fun s hs => hs, fun hs => ⟨rfl, hs⟩⟩
      | @cons g l t t1 t2 hs _ ih =>
        obtain ⟨m, hm, hs⟩ := hs
        unfold TrendIndicator.addPeriod at hs
        simp only [bind_ok] at hs
        obtain ⟨cd, h1, mid, h2, hh, h3, mi, h4, x, h5, hs⟩ := hs
        have hcd : t1.code = some cd := by
          split at hs
          · simp only [pure_ok] at hs; rw [← hs]
          · split at hs <;> simp only [pure_ok] at hs <;> rw [← hs]
        unfold TrendIndicator.extendCode at h1
        cases htc : t.code with
        | none => simp [htc] at h1
        | some s0 =>
          simp only [htc, Except.ok.injEq, RE.match_string hm] at h1
          refine ⟨?_, by simp⟩
          rintro s ⟨⟩
          rw [(ih.1 cd hcd), ← h1]
          rfl
    have hk := key _ _ _ h2
    rcases h1 with ⟨g, m, hg, hm, hx⟩ | ⟨hg, hx⟩
    · left
      refine ⟨g, hg, ?_⟩
      have hcode : t0.code = some (Spec.shown g) := by
        unfold TrendIndicator.new at hx
        simp only [bind_ok, pure_ok, changeIndicatorO] at hx
        obtain ⟨⟨cc, tr⟩, h3, e, _, rfl⟩ := hx
        rw [← RE.match_string hm]
        exact changeIndicator_code h3
      exact hk.1 _ hcode
    · right
      have hcode : t0.code = none := by
        rw [hx]
        unfold TrendIndicator.new at hi
        simp only [bind_ok, pure_ok, changeIndicatorO] at hi
        obtain ⟨⟨cc, tr⟩, h3, e, _, rfl⟩ := hi
        cases h3
        rfl
      exact ⟨hg, hk.2 hcode⟩
  · exact hR.wind.code (code := MetarWind.code) (fun m x hx => MetarWind.new_code hx)
  · exact hR.prevailing.code (code := Visibility.code) (fun m x hx => prevailing_code hx)
  · exact hR.weathers.1.code (by rintro m x ⟨⟩; exact groupCode_some _)
  · exact hR.clouds.1.code (fun m x hx => Cloud.fromMetar_code hx)

/-- C53, TAF changes. The code of the change indicator is the word of the indicator, followed by
that of the validity if there is one; the code of an `FM` indicator is that word as it stands. -/
theorem C53_change_codes (db : Database) (clock : Clock) (code : PyStr) (a : Args) (r : Taf)
    (h : Taf.new db clock code a = .ok r) (x : ChangeForecasted) (hx : x ∈ r.changes.list)
    (c : List (PyStr × Nat))
    (hc : Spec.Decodes ChangeForecasted.handlers (Spec.changeGroups x.code) c) :
    ((∃ g, (g, 0) ∈ c ∧ startsWith g py!"FM" = true ∧ x.indicator.code = some g) ∨
     (∃ g, (g, 0) ∈ c ∧ startsWith g py!"FM" = false ∧
        ((∃ v, (v, 1) ∈ c ∧ x.indicator.code = some (Spec.shown g ++ 32 :: Spec.shown v)) ∨
         ((∀ v, (v, 1) ∉ c) ∧ x.indicator.code = some (Spec.shown g)))) ∨
     ((∀ g, (g, 0) ∉ c) ∧ (∀ g, (g, 1) ∉ c) ∧ x.indicator.code = none)) ∧
    Spec.CodeFrom c 2 none x.core.wind.code ∧
    Spec.CodeFrom c 3 none x.core.prevailing.code ∧
    x.core.weathers.list.map Weather.code = Spec.codes c 4 6 ∧
    x.core.clouds.list.map Cloud.code = Spec.codes c 7 10 := by
  obtain ⟨p1, ho, hrun, hsame, hR, -, -⟩ := Taf.change_decodes h hx hc
  refine ⟨?_, ?_, ?_, ?_, ?_⟩
  · obtain ⟨t0, h1, h2⟩ := ChangeForecasted.indicator_reading hrun ho
    have hcode : x.indicator.code = p1.indicator.code := by
      obtain ⟨i, s, he, hi, -⟩ := hsame
      rw [he]; exact hi
    rw [hcode]
    have hset : ∀ m i', t0.setValidPeriod m r.valid.from_ = .ok i' → ∃ s, t0.code = some s ∧
        (startsWith s py!"FM" = true → i'.code = some s) ∧
        (startsWith s py!"FM" = false → i'.code = some (s ++ 32 :: Spec.shown m.string)) := by
      intro m i' hi
      unfold TafIndicator.setValidPeriod at hi
      simp only [bind_ok] at hi
      obtain ⟨v, hv, hi⟩ := hi
      cases htc : t0.code with
      | none => simp [htc, throw_eq] at hi
      | some s =>
        simp only [htc] at hi
        refine ⟨s, rfl, fun hf => ?_, fun hf => ?_⟩
        · rw [if_pos hf] at hi
          simp only [pure_ok] at hi
          rw [← hi]
        · rw [if_neg (by simp [hf])] at hi
          simp only [pure_ok] at hi
          have hcode : i'.code = some (s ++ (py!" " ++ fmtO v.code)) := by rw [← hi]
          rw [hcode, Valid.fromTaf_code hv]
          rfl
    rcases h1 with ⟨g, m, hg, hm, hx⟩ | ⟨hg, hx⟩
    · have hms := RE.match_string hm
      unfold TafIndicator.new at hx
      simp only at hx
      by_cases hf : startsWith g py!"FM" = true
      · left
        rw [hms, if_pos hf] at hx
        simp only [bind_ok, pure_ok] at hx
        obtain ⟨_, _, _, _, _, _, _, _, _, _, _, _, rfl⟩ := hx
        refine ⟨g, hg, hf, ?_⟩
        rcases h2 with ⟨v, m', -, -, h2⟩ | ⟨-, h2⟩
        · obtain ⟨s, h3, h4, -⟩ := hset m' _ h2
          cases h3
          exact h4 hf
        · rw [h2]
      · right; left
        rw [hms, if_neg hf] at hx
        simp only [bind_ok, pure_ok] at hx
        obtain ⟨⟨cc, tr⟩, h3, hx⟩ := hx
        have hcc := changeIndicator_code h3
        rw [hms] at hcc
        have ht0 : t0.code = some (Spec.shown g) := by rw [← hx]; exact hcc
        have hf' : startsWith (Spec.shown g) py!"FM" = false := by
          have := shown_startsWith g (p := py!"FM") (by decide) (by decide)
          rw [this]; simpa using hf
        refine ⟨g, hg, by simpa using hf, ?_⟩
        rcases h2 with ⟨v, m', hv, hm', h2⟩ | ⟨hv, h2⟩
        · left
          obtain ⟨s, h3, -, h4⟩ := hset m' _ h2
          rw [ht0] at h3
          cases h3
          exact ⟨v, hv, by rw [h4 hf', RE.match_string hm']⟩
        · right
          exact ⟨hv, by rw [h2, ht0]⟩
    · right; right
      have ht0 : t0.code = none := by rw [hx]; rfl
      refine ⟨hg, ?_⟩
      rcases h2 with ⟨v, m', hv, hm', h2⟩ | ⟨hv, h2⟩
      · obtain ⟨s, h3, -⟩ := hset m' _ h2
        rw [ht0] at h3
        cases h3
      · exact ⟨hv, by rw [h2, ht0]⟩
  · exact hR.wind.code (code := MetarWind.code) (fun m x hx => MetarWind.new_code hx)
  · exact hR.prevailing.code (code := Visibility.code) (fun m x hx => prevailing_code hx)
  · exact hR.weathers.1.code (by rintro m x ⟨⟩; exact groupCode_some _)
  · exact hR.clouds.1.code (fun m x hx => Cloud.fromMetar_code hx)

/-- Case: a METAR with a joined visibility group, two pressures and a trend with two periods. -/
example : (match Metar.new sampleDb sampleClock
      py!"METAR SKBO 151200Z 1 1/2SM FEW020 BKN030 20/10 Q1013 A2992 TEMPO FM1230 TL1300 4000" {} with
    | .ok r => decide (r.core.prevailing.code = some py!"1 1/2SM" ∧
        r.core.clouds.list.map Cloud.code = [some py!"FEW020", some py!"BKN030"] ∧
        r.pressure.code = some py!"A2992" ∧
        r.weatherTrends.list.map (fun p => p.indicator.code) = [some py!"TEMPO FM1230 TL1300"])
    | .error _ => false) = true := by decide +kernel

/-- Case: a TAF with temperatures and changes. -/
example : (match Taf.new sampleDb sampleClock
      py!"TAF SKBO 151200Z 1512/1612 9999 TX20/1518Z TN08/1610Z PROB30 TEMPO 1514/1516 2000 FM151800 CAVOK" {}
    with
    | .ok r => decide (r.maxTemperatures.list.map TafTemperature.code = [some py!"TX20/1518Z"] ∧
        r.minTemperatures.list.map TafTemperature.code = [some py!"TN08/1610Z"] ∧
        r.changes.list.map (fun c => c.indicator.code) =
          [some py!"PROB30 TEMPO 1514/1516", some py!"FM151800"])
    | .error _ => false) = true := by decide +kernel

end Verif.Props
