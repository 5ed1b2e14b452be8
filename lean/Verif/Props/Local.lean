import Verif.Lemmas.Local
import Verif.Props.Time

/-
C77: the sections of a report are decoded independently of each other.
-/

namespace Verif.Props
open Verif Verif.Spec

/-- C77 (METAR). Let two texts be read at the same moment with the same year and month. If their bodies are
the same, so is everything read from the body, whatever the trends and the remark are. A trend is determined
by its own text and the time of the report, whatever stands before and after it; and the trends by the
trend section and the time of the report. -/
theorem C77_metar {db : Database} {clock : Clock} {code code' : PyStr} {a a' : Args} {r r' : Metar}
    (hy : a'.year = a.year) (hm : a'.month = a.month)
    (h : Metar.new db clock code a = .ok r) (h' : Metar.new db clock code' a' = .ok r') :
    (r'.body = r.body → SameMetarBody r r') ∧
    (r'.time.time = r.time.time →
      (∀ p ∈ r.weatherTrends.list, ∀ p' ∈ r'.weatherTrends.list, p'.code = p.code → p' = p) ∧
      (r'.trend = r.trend → r'.weatherTrends.list = r.weatherTrends.list)) := by
  refine ⟨Metar.new_local hy hm h h', fun ht => ?_⟩
  obtain ⟨-, time, -, -, -, -, -, -, -, -, -, e, -, -, -, es, -⟩ := Metar.new_reading h
  obtain ⟨-, time', -, -, -, -, -, -, -, -, -, e', -, -, -, es', -⟩ := Metar.new_reading h'
  rw [ht] at e'
  refine ⟨fun p hp p' hp' hc => ?_, fun htr => ?_⟩
  · obtain ⟨t, -, h1⟩ := Each.mem_right e hp
    obtain ⟨t', -, h1'⟩ := Each.mem_right e' hp'
    obtain ⟨-, -, -, -, -, -, -, -, -, -, k, -⟩ := ChangePeriod.new_reading h1
    obtain ⟨-, -, -, -, -, -, -, -, -, -, k', -⟩ := ChangePeriod.new_reading h1'
    rw [k, k', Option.some.injEq] at hc
    rw [ChangePeriod.new_congr _ hc, h1] at h1'
    cases h1'
    rfl
  · have hs : (metarSections (normalizeCode code')).2.1 = (metarSections (normalizeCode code)).2.1 := by
      have k := htr
      unfold Metar.trend at k
      rw [es, es'] at k
      exact k
    unfold Metar.trendParts at e e'
    rw [hs] at e'
    refine Each.functional ?_ e' e
    intro t p p' h1 h2
    rw [h1] at h2
    cases h2
    rfl

/-- C77 (TAF). The same of the body of a TAF and its changes, which are determined by their own text and
the valid period of the report, but for the end of the period of an `FM` change, which the next change
sets. -/
theorem C77_taf {db : Database} {clock : Clock} {code code' : PyStr} {a a' : Args} {r r' : Taf}
    (hy : a'.year = a.year) (hm : a'.month = a.month)
    (h : Taf.new db clock code a = .ok r) (h' : Taf.new db clock code' a' = .ok r') :
    (r'.body = r.body → SameTafBody r r') ∧
    (r'.valid = r.valid →
      (∀ c ∈ r.changes.list, ∀ c' ∈ r'.changes.list, c'.code = c.code → SameChange c c') ∧
      (r'.changesCodes = r.changesCodes → r'.changes.list = r.changes.list)) := by
  refine ⟨Taf.new_local hy hm h h', fun hv => ⟨fun c hc c' hc' he => ?_, fun hcs => ?_⟩⟩
  · obtain ⟨-, -, -, -, -, -, -, -, -, -, -, -, e, -⟩ := Taf.new_reading h
    obtain ⟨-, -, -, -, -, -, -, -, -, -, -, -, e', -⟩ := Taf.new_reading h'
    rw [hv] at e'
    obtain ⟨t, -, c0, h1, s1⟩ := Each.mem_right e hc
    obtain ⟨t', -, c0', h1', s1'⟩ := Each.mem_right e' hc'
    obtain ⟨-, -, -, -, -, -, -, -, k, -⟩ := ChangeForecasted.new_reading h1
    obtain ⟨-, -, -, -, -, -, -, -, k', -⟩ := ChangeForecasted.new_reading h1'
    have q : c.code = c0.code := by obtain ⟨i, s, rfl, -⟩ := s1; rfl
    have q' : c'.code = c0'.code := by obtain ⟨i, s, rfl, -⟩ := s1'; rfl
    rw [q, q', k, k'] at he
    rw [ChangeForecasted.new_congr _ he, h1] at h1'
    cases h1'
    exact s1.same s1'
  · obtain ⟨_, _, r1, un, r2, -, -, -, -, hf, h3, rfl, -⟩ := Taf.new_ok h
    obtain ⟨_, _, r1', un', r2', -, -, -, -, hf', h3', rfl, -⟩ := Taf.new_ok h'
    obtain ⟨_, _, _, _, e⟩ := Taf.changesGo_ok h3
    obtain ⟨_, _, _, _, e'⟩ := Taf.changesGo_ok h3'
    have c1 : r2.finish.changesCodes = (tafSections (normalizeCode code)).2 := by
      unfold Taf.finish; rw [e]; exact hf.changesCodes
    have c2 : r2'.finish.changesCodes = (tafSections (normalizeCode code')).2 := by
      unfold Taf.finish; rw [e']; exact hf'.changesCodes
    rw [← c2, hcs, c1] at h3'
    have v1 : r2.finish.valid = r1.valid := by unfold Taf.finish; rw [e]
    have v2 : r2'.finish.valid = r1'.valid := by unfold Taf.finish; rw [e']
    have hch := Taf.changesGo_local (r := { r1 with unparsed := un })
      (r' := { r1' with unparsed := un' }) (by rw [← v1, ← v2]; exact hv)
      (hf'.changes.trans hf.changes.symm) h3 h3'
    unfold Taf.finish
    simp only [hch]

/-- Two reports with the same body; the first trend stands second in the other report. -/
example : ((metarOk sampleClock py!"METAR KJFK 101251Z 18004KT 9999 TEMPO 4000 RMK A" ⟨none, none, false⟩).map
      fun r => (r.body, r.time.time, r.weatherTrends.list.map (·.code))) =
    some (py!"METAR KJFK 101251Z 18004KT 9999", ⟨2024, 6, 10, 12, 51⟩, [some py!"TEMPO 4000"]) ∧
    ((metarOk sampleClock py!"METAR KJFK 101251Z 18004KT 9999 BECMG SHRA TEMPO 4000" ⟨none, none, true⟩).map
      fun r => (r.body, r.time.time, r.weatherTrends.list.map (·.code))) =
    some (py!"METAR KJFK 101251Z 18004KT 9999", ⟨2024, 6, 10, 12, 51⟩,
      [some py!"BECMG SHRA", some py!"TEMPO 4000"]) := by decide +kernel

/-- The same `FM` change with two different ends. -/
example : ((tafOk sampleClock py!"TAF KJFK 101130Z 1012/1112 18004KT FM101800 20010KT" ⟨none, none, false⟩).map
      fun r => (r.body, r.changes.list.map fun c => (c.code, c.indicator.valid.until_.time))) =
    some (py!"TAF KJFK 101130Z 1012/1112 18004KT", [(py!"FM101800 20010KT", ⟨2024, 6, 11, 12, 0⟩)]) ∧
    ((tafOk sampleClock py!"TAF KJFK 101130Z 1012/1112 18004KT FM101800 20010KT FM102300 24010KT"
      ⟨none, none, false⟩).map
      fun r => (r.body, r.changes.list.map fun c => (c.code, c.indicator.valid.until_.time))) =
    some (py!"TAF KJFK 101130Z 1012/1112 18004KT", [(py!"FM101800 20010KT", ⟨2024, 6, 10, 22, 0⟩),
      (py!"FM102300 24010KT", ⟨2024, 6, 11, 12, 0⟩)]) := by decide +kernel

end Verif.Props
