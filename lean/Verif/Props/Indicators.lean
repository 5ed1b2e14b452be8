import Verif.Spec.Indicators
import Verif.Lemmas.Dict
import Verif.Props.TrendRoundTrip

/-
The dictionaries of change indicators (C82) and the duration of a period (C83).
-/

namespace Verif.Props
open Verif Spec

/-! ### C82 -/

/-- The instant of the change, if there is one, has a code. -/
def AtCoded (i : TrendIndicator) : Prop := ∀ x, i.at_ = some x → x.truthy = true

theorem addPeriod_coded {g : PyStr} {m : Match} {i i' : TrendIndicator}
    (hm : MetarRegExp.TREND_TIME_PERIOD.match g = some m) (hv : AtCoded i)
    (h : i.addPeriod m = .ok i') : AtCoded i' := by
  have hg : g ≠ [] := by
    rintro rfl
    rw [show MetarRegExp.TREND_TIME_PERIOD.match [] = none by decide +kernel] at hm
    cases hm
  unfold TrendIndicator.addPeriod at h
  simp only [bind_ok] at h
  obtain ⟨c, -, mid, -, hr, -, mi, -, x, hx, h⟩ := h
  split at h
  · rw [pure_ok] at h; subst h; exact hv
  · split at h <;> rw [pure_ok] at h <;> subst h
    · exact hv
    · rintro a ⟨⟩
      show decide (replace m.string py!"_" py!" " ≠ []) = true
      rw [RE.match_string hm, ← shown_eq]
      simpa [shown] using hg

theorem trend_coded {code : PyStr} {t : DT} {p : ChangePeriod}
    (h : ChangePeriod.new code t = .ok p) : AtCoded p.indicator := by
  obtain ⟨ind, asg, p1, e0, -, -, e3, e4, -, e6, -, e8⟩ := ChangePeriod.new_reading h
  obtain ⟨t0, h1, h2⟩ := ChangePeriod.indicator_reading e3 e4
  have hp : p.indicator = p1.indicator := by rw [e6]
  rw [hp]
  have hnew : ∀ {m i}, TrendIndicator.new m t = .ok i → AtCoded i := by
    intro m i h
    unfold TrendIndicator.new at h
    simp only [bind_ok, pure_ok] at h
    obtain ⟨⟨c, tr⟩, -, e, -, rfl⟩ := h
    exact (nomatch ·, ·)
  have h0 : AtCoded t0 := by
    rcases h1 with ⟨g, m, -, -, hx⟩ | ⟨-, hx⟩
    · exact hnew hx
    · rw [hx]; exact hnew e0
  clear hp h1
  generalize p1.indicator = t1 at h2
  generalize Spec.taken _ 1 2 = l at h2
  induction h2 with
  | nil => exact h0
  | cons hs _ ih =>
    obtain ⟨m, hm, hs⟩ := hs
    exact ih (addPeriod_coded hm h0 hs)

/-- C82. The dictionary of the indicator of a trend of a METAR holds the forecast window, the period,
the instant of the change, the meaning and the code, and nothing else. -/
theorem C82_trend (db : Database) (clock : Clock) (code : PyStr) (a : Args) (r : Metar)
    (h : Metar.new db clock code a = .ok r) (p : ChangePeriod) (hp : p ∈ r.weatherTrends.list) (n : Nat) :
    leaves (n + 3) p.indicator.dict = trendIndicatorTable p.indicator := by
  obtain ⟨_, _, _, _, -, -, -, -, -, -, -, e, -⟩ := Metar.new_reading h
  obtain ⟨t, -, hp⟩ := e.right p hp
  have hc := trend_coded hp
  unfold AtCoded at hc
  generalize p.indicator = i at hc
  obtain ⟨ic, it, i1, i2, i3, i4, ia⟩ := i
  cases ia with
  | none =>
    have e0 : leaves (n + 2) PyVal.none = [([], PyVal.ofStr none)] := rfl
    leaves_of [TrendIndicator.dict, trendIndicatorTable, leaves_time, e0]
  | some x =>
    have e0 : x.truthy = true := hc x rfl
    leaves_of [TrendIndicator.dict, trendIndicatorTable, leaves_time, e0]

/-- C82. The dictionary of the indicator of a change of a TAF holds the period, the meaning and the
code, and nothing else. -/
theorem C82_change (i : TafIndicator) (n : Nat) :
    leaves (n + 3) i.dict = tafIndicatorTable i := by
  leaves_of [TafIndicator.dict, tafIndicatorTable, leaves_valid]

example : (metarOk sampleClock py!"METAR SBGR 071200Z 9999 BECMG AT1230 5000").map
    (fun r => r.weatherTrends.list.map fun p => (leaves 3 p.indicator.dict).filterMap fun e =>
      match e.2 with | .str s => some (e.1.length, s) | _ => none) =
    some [[(3, py!"2024-06-07 12:00:00"), (3, py!"2024-06-07 14:00:00"), (2, py!"2024-06-07 12:00:00"),
      (2, py!"2024-06-07 14:00:00"), (2, py!"2024-06-07 12:30:00"), (2, py!"AT1230"),
      (1, py!"becoming"), (1, py!"BECMG AT1230")]] := by decide +kernel

/-! ### C83 -/

/-- The minutes from the beginning of the day `t` to the hour `h` of the day with the number `d`, if
that is the day of `t` or the next one. -/
def hourOf (t : DT) (d h : Nat) : Int := (if d = t.day then 0 else 1440) + 60 * h

theorem takes_minutes {t u : DT} {d h : Nat} (hu : Takes t d h u) :
    (minutes u : Int) = minutes (midnight t) + hourOf t d h := by
  obtain ⟨b, h1, h2, h3⟩ := hu
  unfold hourOf
  by_cases hd : d = t.day
  · rw [h1 hd] at h3
    rw [if_pos hd]
    have := h3.2
    omega
  · have h2 := (h2 hd).2
    rw [if_neg hd]
    have := h3.2
    omega

theorem duration_minutes {v : Valid} (h1 : IsTime v.from_.time) (h2 : IsTime v.until_.time) :
    v.duration = (minutes v.until_.time : Int) - minutes v.from_.time := by
  have e1 := minutes_eq ((isTime_iff _).1 h1)
  have e2 := minutes_eq ((isTime_iff _).1 h2)
  unfold Valid.duration
  omega

/-- C83. The duration of the validity of a TAF is the number of minutes from its beginning to its end.
With a valid group it is the difference of the stated hours, a multiple of 60 between -47 and 48 hours;
without one it is 24 hours. -/
theorem C83_report (db : Database) (clock : Clock) (hs : Sane clock) (code : PyStr) (a : Args) (r : Taf)
    (c : List (PyStr × Nat)) (h : Taf.new db clock code a = .ok r)
    (hc : Decodes (Taf.handlers db (clock 1) a) (bodyGroups r.body) c) :
    After r.valid.from_.time r.valid.duration r.valid.until_.time ∧
    (∀ w : ValidGroup, w.WF → (w.text, 5) ∈ c →
      r.valid.duration = hourOf r.time.time w.untilDay (digitsVal w.untilHour) -
        hourOf r.time.time w.fromDay (digitsVal w.fromHour)) ∧
    (60 : Int) ∣ r.valid.duration ∧ -2820 ≤ r.valid.duration ∧ r.valid.duration ≤ 2880 ∧
    ((∀ g, (g, 5) ∉ c) → r.valid.duration = 1440) := by
  obtain ⟨i0, i1, i2, -⟩ := C14_taf db clock code a r h
  have hd := duration_minutes i1 i2
  obtain ⟨f1, f2⟩ := C43_report db clock code a r c h hc
  have hgroup : ∀ w : ValidGroup, w.WF → (w.text, 5) ∈ c →
      r.valid.duration = hourOf r.time.time w.untilDay (digitsVal w.untilHour) -
        hourOf r.time.time w.fromDay (digitsVal w.fromHour) := by
    intro w hw hm
    obtain ⟨-, -, -, t1, t2⟩ := f2 w hw hm
    have := takes_minutes t1
    have := takes_minutes t2
    omega
  have hnone : (∀ g, (g, 5) ∉ c) → r.valid.duration = 1440 := by
    intro hno
    obtain ⟨-, e, -⟩ := C44_report db clock hs code a r c h hc hno
    have := e.2
    omega
  refine ⟨⟨i2, by omega⟩, hgroup, ?_⟩
  by_cases hno : ∀ g, (g, 5) ∉ c
  · have := hnone hno
    exact ⟨by omega, by omega, by omega, hnone⟩
  · simp only [Classical.not_forall, Classical.not_not] at hno
    obtain ⟨g, hg⟩ := hno
    obtain ⟨w, hw, rfl⟩ := f1 g hg
    have e := hgroup w hw hg
    have b1 := hw.2.1.le
    have b2 := hw.2.2.2.le
    unfold hourOf at e
    refine ⟨?_, ?_, ?_, hnone⟩ <;> split at e <;> split at e <;> omega

/-- C83. The duration of a change with a valid group, unless it begins with `FM`. -/
theorem C83_change (db : Database) (clock : Clock) (code : PyStr) (a : Args) (r : Taf)
    (h : Taf.new db clock code a = .ok r) (x : ChangeForecasted) (hx : x ∈ r.changes.list)
    (c : List (PyStr × Nat)) (hc : Decodes ChangeForecasted.handlers (changeGroups x.code) c) :
    After x.indicator.valid.from_.time x.indicator.valid.duration x.indicator.valid.until_.time ∧
    ∀ w : ValidGroup, w.WF → (w.text, 1) ∈ c → ¬ IndicatorBegins py!"FM" x →
      x.indicator.valid.duration = hourOf r.valid.from_.time w.untilDay (digitsVal w.untilHour) -
        hourOf r.valid.from_.time w.fromDay (digitsVal w.fromHour) := by
  obtain ⟨-, i1, -, -, -, i2⟩ := C14_taf db clock code a r h
  obtain ⟨-, -, i3, i4⟩ := i2 x hx
  have hd := duration_minutes i3 i4
  refine ⟨⟨i4, by omega⟩, fun w hw hm hfm => ?_⟩
  obtain ⟨-, -, t1, t2⟩ := (C43_change db clock code a r h x hx c hc).2 w hw hm
  have := takes_minutes t1
  have := takes_minutes (t2 hfm)
  omega

/-- 30 hours; a validity that ends before it begins; the default. -/
example : (tafOk sampleClock py!"TAF SBGR 070500Z 0706/0812 23005KT 9999").map (·.valid.duration) =
    some 1800 := by decide +kernel
example : (tafOk sampleClock py!"TAF SBGR 070500Z 0812/0706 23005KT 9999").map (·.valid.duration) =
    some (-1800) := by decide +kernel
example : (tafOk sampleClock py!"TAF SBGR 070500Z 23005KT 9999").map (·.valid.duration) =
    some 1440 := by decide +kernel

end Verif.Props
