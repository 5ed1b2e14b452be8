import Verif.Lemmas.TrendPeriods
import Verif.Props.Changes

/-
C42–C45, C47: trend periods, valid periods, FM changes and TAF temperatures.
-/

namespace Verif.Props
open Verif.Spec

/-! ### C42: trend periods -/

/-- C42. The clock time of a period group occurs at most once in the two hours from the report time. -/
theorem C42_unique (t u v : DT) (w : PeriodGroup) (ht : IsTime t) (hu : w.Within t u)
    (hv : w.Within t v) : u = v := within_unique ((isTime_iff t).1 ht) hu hv

/-- C42. Every period group is accepted, and if its clock time occurs in the two hours from the report
time, adding it succeeds and sets the time it names to that instant and leaves the other two; nothing
else is accepted. -/
theorem C42_period :
    (∀ w : PeriodGroup, w.WF → ∃ m, MetarRegExp.TREND_TIME_PERIOD.match w.text = some m ∧
      ∀ (i : TrendIndicator) (u : DT), IsTime i.init.time → After i.init.time 120 i.end_.time →
        i.code ≠ none → w.Within i.init.time u → ∃ i', i.addPeriod m = .ok i' ∧
          i'.init = i.init ∧ i'.end_ = i.end_ ∧
          (w.kind = .from_ → i'.from_.time = u ∧ i'.until_ = i.until_ ∧ i'.at_ = i.at_) ∧
          (w.kind = .until_ → i'.until_.time = u ∧ i'.from_ = i.from_ ∧ i'.at_ = i.at_) ∧
          (w.kind = .at_ → i'.at_.map (·.time) = some u ∧ i'.from_ = i.from_ ∧ i'.until_ = i.until_)) ∧
    ∀ s m, MetarRegExp.TREND_TIME_PERIOD.match s = some m → 10 ∉ s →
      ∃ w : PeriodGroup, w.WF ∧ s = w.text := by
  refine ⟨fun w hw => ?_, fun s m => period_only⟩
  obtain ⟨m, hm, -, hp, -⟩ := period_match w hw
  refine ⟨m, hm, fun i u ht he hc hu => ?_⟩
  have ht := (isTime_iff _).1 ht
  obtain ⟨i', hi⟩ := addPeriod_exists hw hm rfl ht he hc hu
  obtain ⟨h1, h2, -, h4, -⟩ := addPeriod_step hw hm rfl ht he hi
  have h4 := h4 u hu
  refine ⟨i', hi, h1, h2, ?_⟩
  unfold TrendIndicator.addPeriod at hi
  simp only [bind_ok] at hi
  obtain ⟨c, -, mid, -, hr, -, mi, -, x, -, hi⟩ := hi
  rw [hp] at hi
  obtain ⟨k, hour, minute⟩ := w
  cases k with
  | from_ =>
    rw [if_pos (by rfl), pure_ok] at hi
    subst hi
    exact ⟨fun _ => ⟨by simpa [TrendIndicator.timeOf] using h4, rfl, rfl⟩, by simp, by simp⟩
  | until_ =>
    rw [if_neg (by simp [PeriodKind.text]), if_pos (by rfl), pure_ok] at hi
    subst hi
    exact ⟨by simp, fun _ => ⟨by simpa [TrendIndicator.timeOf] using h4, rfl, rfl⟩, by simp⟩
  | at_ =>
    rw [if_neg (by simp [PeriodKind.text]), if_neg (by simp [PeriodKind.text]), pure_ok] at hi
    subst hi
    exact ⟨by simp, by simp, fun _ => ⟨by simpa [TrendIndicator.timeOf] using h4, rfl, rfl⟩⟩

/-- The times of a trend, kind by kind. -/
theorem trend_times {db : Database} {clock : Clock} {code : PyStr} {a : Args} {r : Metar}
    (h : Metar.new db clock code a = .ok r) {p : ChangePeriod} (hp : p ∈ r.weatherTrends.list)
    {text : PyStr} (ht : p.code = some text) {c : List (PyStr × Nat)}
    (hc : Decodes ChangePeriod.handlers (bodyGroups text) c) :
    ∃ t0 : TrendIndicator, t0.init.time = r.time.time ∧ After r.time.time 120 t0.end_.time ∧
      t0.from_ = t0.init ∧ t0.until_ = t0.end_ ∧ t0.at_ = none ∧
      p.indicator.init = t0.init ∧ p.indicator.end_ = t0.end_ ∧
      (∀ g ∈ taken c 1 2, ∃ w : PeriodGroup, w.WF ∧ g = w.text) ∧
      ∀ k, (NoneOf k (taken c 1 2) → p.indicator.timeOf k = t0.timeOf k) ∧
        (∀ w u, LastOf k (taken c 1 2) w → w.Within r.time.time u → p.indicator.timeOf k = some u) ∧
        ∀ w, LastOf k (taken c 1 2) w → ∃ x, p.indicator.timeOf k = some x ∧ w.Takes r.time.time x := by
  have hv := Metar.time_valid h
  obtain ⟨ind, p1, h1, ho, hr, hpe, -, -, hn⟩ := Metar.trend_decodes h hp ht hc
  obtain ⟨t0, hf, hch⟩ := ChangePeriod.indicator_reading hr ho
  have hi : p.indicator = p1.indicator := by rw [hpe]
  rw [← hi] at hch
  have hw : t0.init.time = r.time.time ∧ After r.time.time 120 t0.end_.time ∧ t0.from_ = t0.init ∧
      t0.until_ = t0.end_ ∧ t0.at_ = none := by
    rcases hf with ⟨g, m, -, -, hnew⟩ | ⟨-, e⟩
    · exact TrendIndicator.new_window hv hnew
    · rw [e]
      exact TrendIndicator.new_window hv h1
  obtain ⟨w1, w2, w3, w4, w5⟩ := hw
  obtain ⟨e1, e2, e3, e4⟩ := period_chain hch
    (fun g hg => by obtain ⟨i, -, -, hi⟩ := taken_mem hg; exact hn g i hi) w1 hv w2
  exact ⟨t0, w1, w2, w3, w4, w5, e1, e2, e3, e4⟩

/-- C42. The times of a trend of a METAR: the forecast window is the two hours from the report time;
the period begins and ends where the last `FM` and `TL` group decoded in the trend say, or where the
window does, and `AT` gives the instant of the change. -/
theorem C42_report (db : Database) (clock : Clock) (code : PyStr) (a : Args) (r : Metar)
    (h : Metar.new db clock code a = .ok r) (p : ChangePeriod) (hp : p ∈ r.weatherTrends.list)
    (text : PyStr) (ht : p.code = some text) (c : List (PyStr × Nat))
    (hc : Decodes ChangePeriod.handlers (bodyGroups text) c) :
    p.indicator.init.time = r.time.time ∧ After r.time.time 120 p.indicator.end_.time ∧
    (∀ g ∈ taken c 1 2, ∃ w : PeriodGroup, w.WF ∧ g = w.text) ∧
    (NoneOf .from_ (taken c 1 2) → p.indicator.from_.time = r.time.time) ∧
    PeriodSays r.time.time .from_ (taken c 1 2) p.indicator.from_.time ∧
    (NoneOf .until_ (taken c 1 2) → After r.time.time 120 p.indicator.until_.time) ∧
    PeriodSays r.time.time .until_ (taken c 1 2) p.indicator.until_.time ∧
    (NoneOf .at_ (taken c 1 2) → p.indicator.at_ = none) ∧
    ∀ w u, LastOf .at_ (taken c 1 2) w → w.Within r.time.time u →
      p.indicator.at_.map (·.time) = some u := by
  obtain ⟨t0, w1, w2, w3, w4, w5, e1, e2, e3, e4⟩ := trend_times h hp ht hc
  have f1 := e4 .from_
  have f2 := e4 .until_
  have f3 := e4 .at_
  simp only [TrendIndicator.timeOf, Option.some.injEq, w3, w4, w5] at f1 f2 f3
  refine ⟨by rw [e1, w1], by rw [e2]; exact w2, e3, fun hn => by rw [f1.1 hn, w1], f1.2.1,
    fun hn => by rw [f2.1 hn]; exact w2, f2.2.1, fun hn => ?_, f3.2.1⟩
  simpa using f3.1 hn

/-- C42. What a period group gives in any case, also when its clock time is not in the two hours from
the report time: the stated minutes of the hour of the report, of the next hour, or of the hour after
that for every other number. -/
theorem C42_exact (db : Database) (clock : Clock) (code : PyStr) (a : Args) (r : Metar)
    (h : Metar.new db clock code a = .ok r) (p : ChangePeriod) (hp : p ∈ r.weatherTrends.list)
    (text : PyStr) (ht : p.code = some text) (c : List (PyStr × Nat))
    (hc : Decodes ChangePeriod.handlers (bodyGroups text) c) (w : PeriodGroup) :
    (LastOf .from_ (taken c 1 2) w → w.Takes r.time.time p.indicator.from_.time) ∧
    (LastOf .until_ (taken c 1 2) w → w.Takes r.time.time p.indicator.until_.time) ∧
    (LastOf .at_ (taken c 1 2) w → ∃ x, p.indicator.at_ = some x ∧ w.Takes r.time.time x.time) := by
  obtain ⟨t0, -, -, -, -, -, -, -, -, e4⟩ := trend_times h hp ht hc
  refine ⟨fun hl => ?_, fun hl => ?_, fun hl => ?_⟩
  · obtain ⟨x, hx, hw⟩ := (e4 .from_).2.2 w hl
    cases hx
    exact hw
  · obtain ⟨x, hx, hw⟩ := (e4 .until_).2.2 w hl
    cases hx
    exact hw
  · obtain ⟨x, hx, hw⟩ := (e4 .at_).2.2 w hl
    simp only [TrendIndicator.timeOf, Option.map_eq_some_iff] at hx
    obtain ⟨y, hy, rfl⟩ := hx
    exact ⟨y, hy, hw⟩

def trendOf (code : PyStr) : Option TrendIndicator :=
  match Metar.new sampleDb sampleClock code {} with
  | .ok r => r.weatherTrends.list.head?.map (·.indicator)
  | .error _ => none

/-- A trend over midnight at the end of a month. -/
example : (trendOf py!"METAR SKBO 302350Z 23015KT 9999 TEMPO FM0010 TL0130 5000").map
      (fun i => [i.from_.time, i.until_.time]) =
    some [⟨2024, 7, 1, 0, 10⟩, ⟨2024, 7, 1, 1, 30⟩] := by decide +kernel
example : (PeriodGroup.mk .from_ py!"00" py!"10").text = py!"FM0010" := by decide
example : (PeriodGroup.mk .from_ py!"00" py!"10").WF :=
  ⟨⟨48, 48, rfl, by simp [AsciiDigit], by decide, by decide, by simp⟩,
    ⟨49, 48, rfl, by simp [AsciiDigit], by decide, by decide⟩⟩
example : (PeriodGroup.mk .from_ py!"00" py!"10").Within ⟨2024, 6, 30, 23, 50⟩ ⟨2024, 7, 1, 0, 10⟩ :=
  ⟨(isTime_iff _).2 (by decide), by decide +kernel, by decide +kernel, by decide, by decide⟩

/-- Clock times outside of the two hours: ten minutes before the report, and five hours after it, which
is taken for two hours after it. -/
example : (trendOf py!"METAR SKBO 151230Z 23015KT 9999 TEMPO FM1220 TL1730 5000").map
      (fun i => [i.from_.time, i.until_.time]) =
    some [⟨2024, 6, 15, 12, 20⟩, ⟨2024, 6, 15, 14, 30⟩] := by decide +kernel
example : (PeriodGroup.mk .until_ py!"17" py!"30").Takes ⟨2024, 6, 15, 12, 30⟩ ⟨2024, 6, 15, 14, 30⟩ :=
  ⟨2, .inr (.inr ⟨by decide, by decide, rfl⟩), (after_iff (by decide)).2 ⟨by decide, by decide +kernel⟩⟩

/-- The hour 24 is accepted but is no hour of the clock: at 23:30, `TL2400` gives 01:00. -/
theorem C42_midnight_false : ¬ ∀ i, trendOf py!"METAR SKBO 152330Z 23015KT 9999 BECMG TL2400 5000" = some i →
    i.until_.time = ⟨2024, 6, 16, 0, 0⟩ := by
  intro h
  have : (trendOf py!"METAR SKBO 152330Z 23015KT 9999 BECMG TL2400 5000").map (·.until_.time) =
      some ⟨2024, 6, 16, 1, 0⟩ := by decide +kernel
  cases e : trendOf py!"METAR SKBO 152330Z 23015KT 9999 BECMG TL2400 5000" with
  | none => rw [e] at this; simp at this
  | some i =>
    rw [e] at this
    have h := h i e
    simp [h] at this

/-! ### C43: valid periods -/

/-- C43. Every valid group is accepted. If its days are the day of issue or the next one, the period is
exactly the stated one (hour 24 is the end of the day); without a calendar day for one of the ends
(only after 9999-12-31) the result is `OverflowError`. Nothing else is accepted. -/
theorem C43_valid (t : DT) (ht : IsTime t) :
    (∀ w : ValidGroup, w.WF → ∃ m, TafRegExp.VALID.match w.text = some m ∧
      (∀ f u, Stated t w.fromDay (digitsVal w.fromHour) f → Stated t w.untilDay (digitsVal w.untilHour) u →
        ∃ v, Valid.fromTaf (some m) t = .ok v ∧ v.from_.time = f ∧ v.until_.time = u ∧
          v.code = some w.text) ∧
      (∀ e, Valid.fromTaf (some m) t = .error e → e = .overflow ∧
        ¬ ∃ f u, Takes t w.fromDay (digitsVal w.fromHour) f ∧
          Takes t w.untilDay (digitsVal w.untilHour) u)) ∧
    ∀ s m, TafRegExp.VALID.match s = some m → 10 ∉ s → ∃ w : ValidGroup, w.WF ∧ s = w.text := by
  have ht := (isTime_iff t).1 ht
  refine ⟨fun w hw => ?_, fun s m => valid_only⟩
  obtain ⟨m, e1, e2, e3⟩ := valid_match w hw
  obtain ⟨m', e1', hs⟩ := (valid_reads ht).1 w hw
  obtain rfl : m' = m := Option.some.inj (e1'.symm.trans e1)
  have hex : ∀ f u, Takes t w.fromDay (digitsVal w.fromHour) f →
      Takes t w.untilDay (digitsVal w.untilHour) u → ∃ v, Valid.fromTaf (some m') t = .ok v :=
    fun f u hf hu => Valid.fromTaf_exists e3 hw.2.1.le hw.2.2.2.le ht hf hu
  refine ⟨m', e1, fun f u hf hu => ?_, fun e he => ⟨?_, ?_⟩⟩
  · obtain ⟨v, hv⟩ := hex f u (hf.takes ht) (hu.takes ht)
    obtain ⟨s1, s2, s3⟩ := hs v hv
    exact ⟨v, hv, s1.unique ht (hf.takes ht), s2.unique ht (hu.takes ht), s3⟩
  · exact Valid.fromTaf_raises e1 t e he
  · rintro ⟨f, u, hf, hu⟩
    obtain ⟨v, hv⟩ := hex f u hf hu
    rw [hv] at he
    cases he

/-- C43. The validity of a TAF with a valid group: the period stated by the group, relative to the
time of issue. Whatever the days, a day that is not the one of issue is taken for the next one. -/
theorem C43_report (db : Database) (clock : Clock) (code : PyStr) (a : Args) (r : Taf)
    (c : List (PyStr × Nat)) (h : Taf.new db clock code a = .ok r)
    (hc : Decodes (Taf.handlers db (clock 1) a) (bodyGroups r.body) c) :
    (∀ g, (g, 5) ∈ c → ∃ w : ValidGroup, w.WF ∧ g = w.text) ∧
    ∀ w : ValidGroup, w.WF → (w.text, 5) ∈ c → r.valid.code = some w.text ∧
      (∀ f, Stated r.time.time w.fromDay (digitsVal w.fromHour) f → r.valid.from_.time = f) ∧
      (∀ u, Stated r.time.time w.untilDay (digitsVal w.untilHour) u → r.valid.until_.time = u) ∧
      Takes r.time.time w.fromDay (digitsVal w.fromHour) r.valid.from_.time ∧
      Takes r.time.time w.untilDay (digitsVal w.untilHour) r.valid.until_.time := by
  have ht := (Taf.time_valid h).1
  obtain ⟨time, v, -, -, ho, hR, hn⟩ := Taf.new_decodes h hc
  have hA := (valid_reads ht).at hR.valid ho hn
  refine ⟨hA.form, fun w hw hm => ?_⟩
  obtain ⟨h1, h2, h3⟩ := hA.value w hw hm
  exact ⟨h3, fun f hf => h1.unique ht (hf.takes ht), fun u hu => h2.unique ht (hu.takes ht), h1, h2⟩

/-- C43. The period of a change with a valid group: the period stated by the group, relative to the
start of the validity of the TAF. (An FM change may be closed by a later one, see C46.) -/
theorem C43_change (db : Database) (clock : Clock) (code : PyStr) (a : Args) (r : Taf)
    (h : Taf.new db clock code a = .ok r) (x : ChangeForecasted) (hx : x ∈ r.changes.list)
    (c : List (PyStr × Nat)) (hc : Decodes ChangeForecasted.handlers (changeGroups x.code) c) :
    (∀ g, (g, 1) ∈ c → ∃ w : ValidGroup, w.WF ∧ g = w.text) ∧
    ∀ w : ValidGroup, w.WF → (w.text, 1) ∈ c →
      (∀ f, Stated r.valid.from_.time w.fromDay (digitsVal w.fromHour) f →
        x.indicator.valid.from_.time = f) ∧
      (∀ u, ¬ IndicatorBegins py!"FM" x → Stated r.valid.from_.time w.untilDay (digitsVal w.untilHour) u →
        x.indicator.valid.until_.time = u) ∧
      Takes r.valid.from_.time w.fromDay (digitsVal w.fromHour) x.indicator.valid.from_.time ∧
      (¬ IndicatorBegins py!"FM" x →
        Takes r.valid.from_.time w.untilDay (digitsVal w.untilHour) x.indicator.valid.until_.time) := by
  have hv := (Taf.time_valid h).2.1
  obtain ⟨p1, ho, hr, ⟨i, s, hxe, hi1, hi2, hi3⟩, -, -, hn⟩ := Taf.change_decodes h hx hc
  obtain ⟨t0, -, hf⟩ := ChangeForecasted.indicator_reading hr ho
  have hxi : x.indicator = i := by rw [hxe]
  rw [hxi]
  refine ⟨fun g hg => ?_, fun w hw hg => ?_⟩
  · obtain ⟨m, hm, -⟩ := hf.value ho hg
    exact valid_only hm (hn _ _ hg)
  · obtain ⟨m, hm, hset⟩ := hf.value ho hg
    have : ∃ v, Valid.fromTaf (some m) r.valid.from_.time = .ok v ∧ p1.indicator.valid = v := by
      unfold TafIndicator.setValidPeriod at hset
      simp only [bind_ok] at hset
      obtain ⟨v, hv, hset⟩ := hset
      refine ⟨v, hv, ?_⟩
      split at hset
      · cases hset
      · split at hset <;> (rw [pure_ok] at hset; rw [← hset])
    obtain ⟨v, hfv, hpv⟩ := this
    obtain ⟨m', hm', hsay⟩ := (valid_reads hv).1 w hw
    obtain rfl : m' = m := Option.some.inj (hm'.symm.trans hm)
    obtain ⟨s1, s2, -⟩ := hsay v hfv
    simp only [hpv] at hi2
    have t2 : ¬ IndicatorBegins py!"FM" x →
        Takes r.valid.from_.time w.untilDay (digitsVal w.untilHour) i.valid.until_.time := by
      intro hfm
      rw [hi3 ?_]
      · simp only [hpv]
        exact s2
      · intro s hs
        rw [← hi1] at hs
        cases hb : startsWith s py!"FM" with
        | false => rfl
        | true =>
          refine absurd ⟨s, ?_, startsWith_begins.1 hb⟩ hfm
          rw [hxi, hs]
    rw [← hi2] at s1
    exact ⟨fun f hf => s1.unique hv (hf.takes hv), fun u hfm hu => (t2 hfm).unique hv (hu.takes hv), s1, t2⟩

/-- A period over the end of a year up to hour 24. -/
example : (tafOk sampleClock py!"TAF SKBO 311700Z 3118/0124 23005KT 9999" ⟨some 2023, some 12, false⟩).map
      (fun r => [r.valid.from_.time, r.valid.until_.time]) =
    some [⟨2023, 12, 31, 18, 0⟩, ⟨2024, 1, 2, 0, 0⟩] := by decide +kernel
example : (ValidGroup.mk 31 py!"18" 1 py!"24").text = py!"3118/0124" := by decide
example : (ValidGroup.mk 31 py!"18" 1 py!"24").WF :=
  ⟨by simp [IsDay], ⟨49, 56, rfl, by simp [AsciiDigit], by decide, by decide, by simp⟩, by simp [IsDay],
    ⟨50, 52, rfl, by simp [AsciiDigit], by decide, by decide, by simp [AsciiDigit]⟩⟩
example : Stated ⟨2023, 12, 31, 17, 0⟩ 1 24 ⟨2024, 1, 2, 0, 0⟩ := by
  refine ⟨⟨2024, 1, 1, 0, 0⟩, .inr ?_, rfl, ?_⟩ <;>
    exact (after_iff (by decide)).2 ⟨by decide, by decide +kernel⟩

/-- A change over the end of a month, relative to the start of the validity. -/
example : (tafOk sampleClock py!"TAF SKBO 301700Z 3018/0118 23005KT 9999 TEMPO 3022/0102 5000").map
      (fun r => r.changes.list.map fun x => [x.indicator.valid.from_.time, x.indicator.valid.until_.time]) =
    some [[⟨2024, 6, 30, 22, 0⟩, ⟨2024, 7, 1, 2, 0⟩]] := by decide +kernel

/-- The claim without the restriction on the days is false: a period that ends two days after the day
of issue is decoded to end on the next day. -/
theorem C43_two_days_false : ¬ ∀ r, tafOk sampleClock py!"TAF SKBO 010500Z 0106/0312 23005KT 9999" = some r →
    r.valid.until_.time = ⟨2024, 6, 3, 12, 0⟩ := by
  intro h
  have : (tafOk sampleClock py!"TAF SKBO 010500Z 0106/0312 23005KT 9999").map (·.valid.until_.time) =
      some ⟨2024, 6, 2, 12, 0⟩ := by decide +kernel
  cases e : tafOk sampleClock py!"TAF SKBO 010500Z 0106/0312 23005KT 9999" with
  | none => rw [e] at this; simp at this
  | some r =>
    rw [e] at this
    have h := h r e
    simp [h] at this

/-! ### C44: default validity -/

/-- C44. Without a valid group, the period starts one hour after the hour of the given time and lasts
24 hours; it exists unless it leaves the calendar. -/
theorem C44_default (t : DT) (ht : IsTime t) :
    (∀ v, Valid.fromTaf none t = .ok v → After { t with minute := 0 } 60 v.from_.time ∧
      After v.from_.time 1440 v.until_.time ∧ v.code = none) ∧
    ∀ f u, After { t with minute := 0 } 60 f → After f 1440 u →
      ∃ v, Valid.fromTaf none t = .ok v ∧ v.from_.time = f ∧ v.until_.time = u := by
  have ht := (isTime_iff t).1 ht
  refine ⟨fun v hv => Valid.fromTaf_none ht hv, fun f u hf hu => ?_⟩
  have h0 : ({ t with minute := 0 } : DT).valid = true := by
    rw [DT.valid_iff] at ht ⊢
    exact ⟨ht.1, ht.2.1, by simp⟩
  have hfv := ((after_iff h0).1 hf).1
  have e1 : ({ t with minute := 0 } : DT).addHours 1 = .ok f := (addMinutes_after h0).2 hf
  have e2 : f.addHours 24 = .ok u := (addMinutes_after hfv).2 hu
  refine ⟨⟨none, Time.ofDT f, Time.ofDT u⟩, ?_, rfl, rfl⟩
  unfold Valid.fromTaf
  simp only [DT.replaceMinute, Nat.zero_le, if_true, ok_bind, e1, e2]
  rfl

/-- C44. The validity of a TAF without a valid group is one day from 01:00 of the first day of the month
in which the constructor is called, whatever its time of issue. -/
theorem C44_report (db : Database) (clock : Clock) (hs : Sane clock) (code : PyStr) (a : Args) (r : Taf)
    (c : List (PyStr × Nat)) (h : Taf.new db clock code a = .ok r)
    (hc : Decodes (Taf.handlers db (clock 1) a) (bodyGroups r.body) c) (hno : ∀ g, (g, 5) ∉ c) :
    r.valid.from_.time = ⟨(clock 0).year, (clock 0).month, 1, 1, 0⟩ ∧
      After r.valid.from_.time 1440 r.valid.until_.time ∧ r.valid.code = none := by
  obtain ⟨time, v, ht, hv, ho, hR, hn⟩ := Taf.new_decodes h hc
  have e : r.valid = v := hR.valid.absent hno
  obtain ⟨y', mo', y1, y2, m1, m2, e1, e2, e3⟩ := default_time hs 0 none none (by simp) (by simp)
  rw [ht] at e3
  cases e3
  simp only [Option.getD_none] at e1 e2
  have hval : (DT.mk y' mo' 1 0 0).valid = true := by
    have hd := (dimL_pos (isLeap y') mo' m1 m2).1
    rw [DT.valid_iff]
    refine ⟨⟨by simp only; omega, y2, m1, m2, Nat.le_refl _, ?_⟩, by simp, by simp⟩
    simp only
    rw [daysInMonth_eq]
    omega
  obtain ⟨h1, h2, h3⟩ := Valid.fromTaf_none hval hv
  rw [e]
  refine ⟨?_, h2, h3⟩
  have hd1 : (clock 0).year = y' := by omega
  have hd2 : (clock 0).month = mo' := by omega
  rw [hd1, hd2]
  refine After.unique h1 ?_
  rw [after_iff hval]
  constructor
  · rw [DT.valid_iff] at hval ⊢
    exact ⟨hval.1, by simp, by simp⟩
  · simp [DT.toMinutes]

/-- The claim for the time of issue is false: a TAF issued on the 15th at 17:00 without a valid group
does not start at 18:00. -/
theorem C44_issue_false : ¬ ∀ r, tafOk sampleClock py!"TAF SKBO 151700Z 23005KT 9999" = some r →
    After { r.time.time with minute := 0 } 60 r.valid.from_.time := by
  intro h
  have : (tafOk sampleClock py!"TAF SKBO 151700Z 23005KT 9999").map
      (fun r => (r.time.time, r.valid.from_.time)) =
      some (⟨2024, 6, 15, 17, 0⟩, ⟨2024, 6, 1, 1, 0⟩) := by decide +kernel
  cases e : tafOk sampleClock py!"TAF SKBO 151700Z 23005KT 9999" with
  | none => rw [e] at this; simp at this
  | some r =>
    rw [e] at this
    simp only [Option.map_some, Option.some.injEq, Prod.mk.injEq] at this
    have h := h r e
    rw [this.1, this.2, after_iff (by decide)] at h
    exact absurd h.2 (by decide +kernel)

/-- The default validity of a time at the end of a month. -/
example : Valid.fromTaf none ⟨2024, 6, 30, 23, 40⟩ =
    .ok ⟨none, ⟨none, ⟨2024, 7, 1, 0, 0⟩⟩, ⟨none, ⟨2024, 7, 2, 0, 0⟩⟩⟩ := by rfl

/-! ### C45: FM changes -/

/-- C45. Every `FMDDHHMM` group is accepted and gives the stated hour and minute of the first day with
that number that is not before the day the validity starts. The search ends with such a day, or with
`OverflowError` when the calendar has none; before the year 9999 there always is one. -/
theorem C45_fm (v : Valid) (ht : IsTime v.from_.time) (w : FmGroup) (hw : w.WF) :
    ∃ m, TafRegExp.CHANGE_INDICATOR.match w.text = some m ∧
      (∀ u, w.At v.from_.time u → ∃ i, TafIndicator.new (some m) v = .ok i ∧ i.valid.from_.time = u ∧
        i.valid.until_ = v.until_ ∧ i.code = some w.text) ∧
      (∀ e, TafIndicator.new (some m) v = .error e → e = .overflow ∧ ¬ ∃ u, w.At v.from_.time u) ∧
      (v.from_.time.year < 9999 → ∃ u, w.At v.from_.time u) := by
  have ht := (isTime_iff _).1 ht
  obtain ⟨m, e1, e2, e3, e4, e5⟩ := fm_match w hw
  have hsw : startsWith m.string py!"FM" = true := by rw [e2]; rfl
  obtain ⟨n1, n2⟩ := fm_new hw hsw e3 e4 e5 ht
  have huniq : ∀ u u', w.At v.from_.time u → w.At v.from_.time u' → u = u' := by
    rintro u u' ⟨b, hb, hu⟩ ⟨b', hb', hu'⟩
    obtain rfl := hb.unique hb'
    exact After.unique hu hu'
  refine ⟨m, e1, fun u hu => ?_, fun e he => ⟨?_, ?_⟩, fun hy => ?_⟩
  · obtain ⟨i, hi⟩ := n2 ⟨u, hu⟩
    obtain ⟨h1, h2, h3⟩ := n1 i hi
    exact ⟨i, hi, huniq _ _ h1 hu, h2, by rw [h3, e2]⟩
  · unfold TafIndicator.new at he
    simp only [hsw, if_true, e3, e4, e5, ok_bind] at he
    cases hd : findDay w.day (maxOrdinal + 1) v.from_.time with
    | error e' =>
      rw [hd] at he
      cases he
      exact findDay_raises _ _ _ _ hd
    | ok t' =>
      rw [hd] at he
      simp only [DT.replaceHour, DT.replaceMinute, if_pos hw.2.1.le, if_pos hw.2.2.le, ok_bind] at he
      cases he
  · intro hu
    obtain ⟨i, hi⟩ := n2 hu
    rw [hi] at he
    cases he
  · have hex : ∃ t', findDay w.day (maxOrdinal + 1) v.from_.time = .ok t' := by
      generalize v.from_.time = t at ht hy
      obtain ⟨d1, d2⟩ := hw.1
      have htv := (DT.valid_iff t).1 ht
      have hb : (DT.mk (t.year + 1) 1 w.day t.hour t.minute).valid = true := by
        rw [DT.valid_iff]
        exact ⟨⟨by simp, by simp only; omega, by simp, by simp, d1, by simpa [daysInMonth] using d2⟩,
          htv.2⟩
      have hlt : toOrd t.year t.month t.day ≤ toOrd (t.year + 1) 1 w.day := by
        have h1 := (toOrd_year htv.1).2
        have h2 := (toOrd_year ((DT.valid_iff _).1 hb).1).1
        have h3 := daysBeforeYear_succ t.year htv.1.1
        simp only at h2
        omega
      have hr := toMinutes_range hb
      refine findDay_finds ht (j := toOrd (t.year + 1) 1 w.day - toOrd t.year t.month t.day) hb ?_ rfl ?_
      · simp only [DT.toMinutes]
        omega
      · simp only [DT.toMinutes] at hr
        omega
    obtain ⟨t', hd⟩ := hex
    have hi : ∃ i, TafIndicator.new (some m) v = .ok i := by
      unfold TafIndicator.new
      simp only [hsw, if_true, e3, e4, e5, ok_bind, hd, DT.replaceHour, DT.replaceMinute,
        if_pos hw.2.1.le, if_pos hw.2.2.le]
      exact ⟨_, rfl⟩
    obtain ⟨i, hi⟩ := hi
    exact ⟨_, (n1 i hi).1⟩

/-- C45. A change of a TAF that begins with an `FM` group and has no valid group starts at the first
instant the group may denote, counted from the day the validity of the TAF starts; text after the
digits does not matter. -/
theorem C45_report (db : Database) (clock : Clock) (code : PyStr) (a : Args) (r : Taf)
    (h : Taf.new db clock code a = .ok r) (x : ChangeForecasted) (hx : x ∈ r.changes.list)
    (c : List (PyStr × Nat)) (hc : Decodes ChangeForecasted.handlers (changeGroups x.code) c)
    (g : PyStr) (hg : (g, 0) ∈ c) (hf : startsWith g py!"FM" = true) (hno : ∀ g, (g, 1) ∉ c) :
    ∃ (w : FmGroup) (rest : PyStr), w.WF ∧ g = w.text ++ rest ∧
      w.At r.valid.from_.time x.indicator.valid.from_.time ∧ x.indicator.code = some g := by
  have hv := (Taf.time_valid h).2.1
  obtain ⟨p1, ho, hr, ⟨i, s, hxe, hi1, hi2, -⟩, -, -, hn⟩ := Taf.change_decodes h hx hc
  obtain ⟨t0, h0, h1⟩ := ChangeForecasted.indicator_reading hr ho
  have hxi : x.indicator = i := by rw [hxe]
  have hp : p1.indicator = t0 := h1.absent hno
  obtain ⟨m, hm, hnew⟩ := h0.value ho hg
  obtain ⟨w, rest, hw, he, hms, e3, e4, e5⟩ := fm_begin hm hf
  obtain ⟨n1, -⟩ := fm_new hw (by rw [hms]; exact hf) e3 e4 e5 hv
  obtain ⟨k1, k2, k3⟩ := n1 t0 hnew
  refine ⟨w, rest, hw, he, ?_, ?_⟩
  · rw [hxi, hi2]
    simp only [hp]
    exact k1
  · rw [hxi, hi1]
    simp only [hp]
    rw [k3, hms]

/-- Changes on the next day and on the next 31st, in another month. -/
example : (tafOk sampleClock py!"TAF SKBO 011700Z 0118/0218 23005KT 9999 FM021230 5000 FM311230 6000"
      ⟨some 2024, some 2, false⟩).map
      (fun r => r.changes.list.map fun x => x.indicator.valid.from_.time) =
    some [⟨2024, 2, 2, 12, 30⟩, ⟨2024, 3, 31, 12, 30⟩] := by decide +kernel
example : (FmGroup.mk 2 py!"12" py!"30").text = py!"FM021230" := by decide
example : (FmGroup.mk 2 py!"12" py!"30").WF :=
  ⟨by simp [IsDay], ⟨49, 50, rfl, by simp [AsciiDigit], by decide, by decide, by simp⟩,
    ⟨51, 48, rfl, by simp [AsciiDigit], by decide, by decide⟩⟩

/-! ### C47: TAF temperatures -/

/-- C47. Every temperature group is accepted and gives the stated value and, if its day is the day of
issue or the next one, the stated instant. -/
theorem C47_group (t : DT) (ht : IsTime t) (w : TafTempGroup) (hw : w.WF) :
    ∃ m, TafRegExp.TEMPERATURE.match w.text = some m ∧
      (m.group .type = some (if w.max then py!"X" else py!"N")) ∧
      (∀ x, TafTemperature.new m t = .ok x → x.value = some (signed w.minus (digitsVal w.digits))) ∧
      ∀ u, Stated t w.day (digitsVal w.hour) u → ∃ x, TafTemperature.new m t = .ok x ∧
        x.time.time = u := by
  have ht := (isTime_iff t).1 ht
  obtain ⟨m, e1, e2, e3⟩ := tafTemp_match w hw
  obtain ⟨n1, n2⟩ := tafTemp_new hw e3 ht
  refine ⟨m, e1, e3.type, fun x hx => ?_, fun u hu => ?_⟩
  · exact (n1 (_, x) (by unfold tafTagged; rw [hx]; rfl)).2.1.1
  · obtain ⟨y, hy⟩ := n2 ⟨u, hu.takes ht⟩
    have hs := (n1 y hy).2.1.2
    unfold tafTagged at hy
    cases hx : TafTemperature.new m t with
    | error e => rw [hx] at hy; cases hy
    | ok x =>
      rw [hx] at hy
      cases hy
      exact ⟨x, rfl, hs.unique ht (hu.takes ht)⟩

/-- What a group `g` decoded as temperature says of `x`: it begins with the text of `w`, whose value
and instant are those of `x`. -/
structure TempRead (t : DT) (g : PyStr) (w : TafTempGroup) (x : TafTemperature) : Prop where
  form : w.WF
  text : ∃ rest, g = w.text ++ rest
  value : x.value = some (signed w.minus (digitsVal w.digits))
  instant : ∀ u, Stated t w.day (digitsVal w.hour) u → x.time.time = u

/-- C47. The maximum temperatures of a TAF are those of the `TX` groups decoded in it, in their order,
and the minimum temperatures those of the `TN` groups. -/
theorem C47_report (db : Database) (clock : Clock) (code : PyStr) (a : Args) (r : Taf)
    (c : List (PyStr × Nat)) (h : Taf.new db clock code a = .ok r)
    (hc : Decodes (Taf.handlers db (clock 1) a) (bodyGroups r.body) c) :
    ∃ ts : List (TafTempGroup × TafTemperature),
      Each (fun g p => TempRead r.time.time g p.1 p.2) (taken c 16 19) ts ∧
      r.maxTemperatures.list = (ts.filter (·.1.max)).map (·.2) ∧
      r.minTemperatures.list = (ts.filter (!·.1.max)).map (·.2) := by
  have ht := (Taf.time_valid h).1
  obtain ⟨time, v, -, -, ho, hR, hn⟩ := Taf.new_decodes h hc
  obtain ⟨ts, h1, h2, h3⟩ := hR.temperatures
  rw [h2, h3]
  unfold FromGroups at h1
  clear h2 h3 hc hR
  generalize taken c 16 19 = gs at h1
  induction h1 with
  | nil => exact ⟨[], .nil, rfl, rfl⟩
  | @cons g y gs ys hy _ ih =>
    obtain ⟨ts, t1, t2, t3⟩ := ih
    obtain ⟨m, hm, hy⟩ := hy
    obtain ⟨w, rest, hw, he, hin⟩ := tafTemp_begin hm
    obtain ⟨k1, ⟨k2, k3⟩, -⟩ := (tafTemp_new hw hin ht).1 y hy
    refine ⟨(w, y.2) :: ts, .cons ⟨hw, ⟨rest, he⟩, k2, fun u hu => k3.unique ht (hu.takes ht)⟩ t1, ?_, ?_⟩
    · rw [List.filter_cons, List.filter_cons, k1]
      cases w.max <;> simp [t2]
    · rw [List.filter_cons, List.filter_cons, k1]
      cases w.max <;> simp [t3]

/-- Two maxima and one minimum. -/
example : (tafOk sampleClock
      py!"TAF SKBO 301700Z 3018/0118 23005KT 9999 TX21/3019Z TNM02/0110Z TX25/0118Z").map
      (fun r => [r.maxTemperatures.list.map fun x => (x.value, x.time.time),
        r.minTemperatures.list.map fun x => (x.value, x.time.time)]) =
    some [[(some ⟨21, false⟩, ⟨2024, 6, 30, 19, 0⟩), (some ⟨25, false⟩, ⟨2024, 7, 1, 18, 0⟩)],
      [(some ⟨-2, false⟩, ⟨2024, 7, 1, 10, 0⟩)]] := by decide +kernel
example : (TafTempGroup.mk false true py!"02" 1 py!"10").text = py!"TNM02/0110Z" := by decide
example : (TafTempGroup.mk false true py!"02" 1 py!"10").WF :=
  ⟨rfl, by decide, by simp [IsDay],
    ⟨49, 48, rfl, by simp [AsciiDigit], by decide, by decide, by simp⟩⟩

end Verif.Props
