import Verif.Lemmas.Output
import Verif.Props.Periods
import Verif.Props.Dict

/-
C113: the standard output of the constructor of `Metar`.
-/

namespace Verif.Props
open Verif.Spec

/-! ### C113: what constructing a METAR prints -/

/-- C113. With its output, the constructor gives the same report or raises the same exception as the model
without: what the other properties say holds of it. -/
theorem C113_result (db : Database) (clock : Clock) (code : PyStr) (a : Args) :
    (Metar.printing db clock code a).result = Metar.new db clock code a :=
  Metar.printing_result db clock code a

/-- C113. Constructing a METAR prints, trend by trend, one line for every `FM`, `TL` and `AT` group that is
decoded, and nothing else. The line is the instant of the last `AT` group of the trend up to there, or
`None` when there is none. -/
theorem C113_lines (db : Database) (clock : Clock) (code : PyStr) (a : Args) (r : Metar)
    (h : Metar.new db clock code a = .ok r) :
    ∃ lss, (Metar.printing db clock code a).lines = lss.flatten ∧
      Each (fun p ls => ∀ text c, p.code = some text → Decodes ChangePeriod.handlers (bodyGroups text) c →
        PeriodLines r.time.time (taken c 1 2) ls) r.weatherTrends.list lss := by
  refine ⟨_, Metar.printing_lines h, ?_⟩
  obtain ⟨t0, time, asg0, r1, -, -, -, -, -, -, -, e, -⟩ := Metar.new_reading h
  refine e.mapped fun t ht p hp text c hc hd => ?_
  exact ChangePeriod.printing_lines hp (Metar.time_valid h) (Metar.trendParts_no_newline
    (normalizeCode_no_newline code) t (List.mem_filter.1 ht).1) hc hd

/-- C113. At most two lines are printed for each trend, and none at all when no period group is decoded. -/
theorem C113_count (db : Database) (clock : Clock) (code : PyStr) (a : Args) (r : Metar)
    (h : Metar.new db clock code a = .ok r) :
    (Metar.printing db clock code a).lines.length ≤ 2 * r.weatherTrends.list.length ∧
    ((∀ p ∈ r.weatherTrends.list, ∀ text c, p.code = some text →
      Decodes ChangePeriod.handlers (bodyGroups text) c → taken c 1 2 = []) →
      (Metar.printing db clock code a).lines = []) := by
  obtain ⟨lss, e, hl⟩ := C113_lines db clock code a r h
  rw [e]
  have hcode : ∀ p ∈ r.weatherTrends.list, ∃ text c, p.code = some text ∧
      Decodes ChangePeriod.handlers (bodyGroups text) c ∧ (taken c 1 2).length ≤ 2 := by
    intro p hp
    obtain ⟨t0, time, asg0, r1, -, -, -, -, -, -, -, e, -⟩ := Metar.new_reading h
    obtain ⟨t, -, hnew⟩ := e.right p hp
    obtain ⟨ind, asg, p1, e0, e1, e2, e3, e4, e5, e6, e7, e8⟩ := ChangePeriod.new_reading hnew
    exact ⟨_, _, e7, ⟨asg, e1, e2, rfl⟩, taken_length 1 2 e4⟩
  clear e
  revert hl hcode
  generalize r.weatherTrends.list = ps
  intro hl hcode
  induction hl with
  | nil => exact ⟨by simp, fun _ => rfl⟩
  | @cons p ls ps lss h1 _ ih =>
    obtain ⟨i1, i2⟩ := ih (fun p hp => hcode p (by simp [hp]))
    obtain ⟨text, c, hc, hd, hle⟩ := hcode p (by simp)
    obtain ⟨k1, -⟩ := h1 text c hc hd
    refine ⟨?_, fun hno => ?_⟩
    · simp only [List.flatten_cons, List.length_append, List.length_cons]
      omega
    · rw [List.flatten_cons, i2 fun p hp => hno p (by simp [hp])]
      rw [hno p (by simp) text c hc hd] at k1
      simpa using k1

/-- C113. What is printed does not depend on `truncate`: a report that is rejected for its unparsed groups
has printed the same lines before. -/
theorem C113_truncate (db : Database) (clock : Clock) (code : PyStr) (a : Args) (b : Bool) :
    (Metar.printing db clock code { a with truncate := b }).lines = (Metar.printing db clock code a).lines :=
  Metar.printing_truncate db clock code a b

/-- C113. Whatever the text, and whether a report is made or an exception raised, every line is `None` or an
instant of the calendar. -/
theorem C113_any (db : Database) (clock : Clock) (code : PyStr) (a : Args) :
    ∀ l ∈ (Metar.printing db clock code a).lines, IsLine l := Metar.printing_any db clock code a

/-- The change at 12:30 is printed with every group after it, for each trend anew. -/
example : (Metar.printing sampleDb sampleClock
      py!"METAR SKBO 151200Z 23015KT 9999 TEMPO FM1210 AT1230 5000 BECMG AT1300 TL1330 9999" {}).lines =
    [py!"None", py!"2024-06-15 12:30:00", py!"2024-06-15 13:00:00", py!"2024-06-15 13:00:00"] := by
  decide +kernel

/-- Before the third trend is refused, its line is printed. -/
example : (Metar.printing sampleDb sampleClock
      py!"METAR SKBO 151200Z 23015KT 9999 TEMPO AT1230 5000 BECMG AT1300 9999 TEMPO AT1330 3000" {}).lines =
    [py!"2024-06-15 12:30:00", py!"2024-06-15 13:00:00", py!"2024-06-15 13:30:00"] ∧
    (Metar.new sampleDb sampleClock
      py!"METAR SKBO 151200Z 23015KT 9999 TEMPO AT1230 5000 BECMG AT1300 9999 TEMPO AT1330 3000" {}).toOption
      = none := by
  decide +kernel

/-- A report that is rejected. -/
example : (Metar.printing sampleDb sampleClock
      py!"METAR SKBO 151200Z 23015KT 9999 TEMPO AT1230 5000 XYZ" ⟨none, none, true⟩).lines =
      [py!"2024-06-15 12:30:00"] ∧
    (Metar.new sampleDb sampleClock
      py!"METAR SKBO 151200Z 23015KT 9999 TEMPO AT1230 5000 XYZ" ⟨none, none, true⟩).toOption = none := by
  decide +kernel

end Verif.Props
