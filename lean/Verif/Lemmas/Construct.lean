import Verif.Lemmas.Frame
import Verif.Lemmas.Parse

/-
The constructors `Metar(...)` and `Taf(...)` step by step.
-/

namespace Verif

/-- The report before the body is parsed. -/
def Metar.start (raw : PyStr) (time : Time) : Metar :=
  { rawCode := raw,
    sections := [(metarSections raw).1, (metarSections raw).2.1, (metarSections raw).2.2],
    type := ReportType.new (upper py!"METAR"), station := ⟨none, none⟩, time := time,
    modifier := Modifier.new none }

/-- The text of the body handed to the parser. -/
def Metar.bodyText (raw : PyStr) : PyStr :=
  sanitizeWindshear (sanitizeVisibility (metarSections raw).1)

/-- The parts the trend section is cut into. -/
def Metar.trendParts (raw : PyStr) : List PyStr :=
  splitSentence (metarSections raw).2.1 [py!"TEMPO", py!"BECMG"] 1 .both

/-- What happens to the report once all trends are in. -/
def Metar.finish (r : Metar) : Metar :=
  { r with weatherTrends := r.weatherTrends.iter.2,
           unparsed := r.unparsed ++ r.weatherTrends.iter.1.flatMap ChangePeriod.unparsed }

/-- The constructor as a sequence of steps. -/
theorem Metar.new_eq (db : Database) (clock : Clock) (code : PyStr) (a : Args) (hc : code ≠ []) :
    Metar.new db clock code a = (do
      let _ ← Time.new (clock 0) none none none none none none
      let time ← Time.fromMetar (clock 1) none a.year a.month
      let (r, un) ← parseSection (Metar.handlers db (clock 2) a) (Metar.bodyText (normalizeCode code))
        (Metar.start (normalizeCode code) time)
      let r ← Metar.trendsGo (splitSentence r.trend [py!"TEMPO", py!"BECMG"] 1 .both)
        { r with unparsed := r.unparsed ++ un }
      if r.finish.unparsed ≠ [] ∧ a.truncate then
        throw (Exc.parser (Metar.errorMessage r.finish.unparsed r.rawCode))
      return r.finish) := by
  unfold Metar.new
  rw [if_neg hc]
  simp only [bind_assoc, pure_bind, Metar.parseBody, Metar.parseWeatherTrend, Station.new, ok_bind]
  rfl

/-- The handlers of the body leave the sections alone. -/
theorem Metar.parse_frame {db : Database} {now : Now} {a : Args} {text : PyStr} {r r' : Metar}
    {un : List PyStr} (h : parseSection (Metar.handlers db now a) text r = .ok (r', un)) :
    Metar.Frame r r' := by
  refine parseSection_invariant (P := fun x => Metar.Frame r x) ?_ ⟨rfl, rfl, rfl, rfl⟩ h
  intro hd hh g m s s' _ hp hr
  have := Metar.handlers_frame hh hr
  exact ⟨this.1.trans hp.1, this.2.trans hp.2, this.3.trans hp.3, this.4.trans hp.4⟩

/-- Inversion of a successful construction. -/
theorem Metar.new_ok {db : Database} {clock : Clock} {code : PyStr} {a : Args} {r : Metar}
    (h : Metar.new db clock code a = .ok r) :
    ∃ t0 time r1 un r2, code ≠ [] ∧ Time.new (clock 0) none none none none none none = .ok t0 ∧
      Time.fromMetar (clock 1) none a.year a.month = .ok time ∧
      parseSection (Metar.handlers db (clock 2) a) (Metar.bodyText (normalizeCode code))
        (Metar.start (normalizeCode code) time) = .ok (r1, un) ∧
      Metar.Frame (Metar.start (normalizeCode code) time) r1 ∧
      Metar.trendsGo (Metar.trendParts (normalizeCode code)) { r1 with unparsed := un } = .ok r2 ∧
      r = r2.finish ∧ ¬ (r.unparsed ≠ [] ∧ a.truncate = true) := by
  by_cases hc : code = []
  · subst hc
    simp [Metar.new, throw_eq, error_bind] at h
  rw [Metar.new_eq db clock code a hc] at h
  simp only [bind_ok] at h
  obtain ⟨t0, h0, time, h1, ⟨r1, un⟩, h2, r2, h3, h4⟩ := h
  have hf := Metar.parse_frame h2
  refine ⟨t0, time, r1, un, r2, hc, h0, h1, h2, hf, ?_, ?_⟩
  · have e1 : r1.unparsed = [] := hf.unparsed
    have e2 : r1.trend = (metarSections (normalizeCode code)).2.1 := by
      unfold Metar.trend
      rw [hf.sections]; rfl
    simp only [e1, e2, List.nil_append] at h3
    exact h3
  · split at h4
    · cases h4
    · next hn =>
      simp only [pure_ok] at h4
      subst h4
      exact ⟨rfl, hn⟩

/-- The report before the body is parsed. -/
def Taf.start (raw : PyStr) (time : Time) (v : Valid) : Taf :=
  { rawCode := raw, body := (tafSections raw).1, changesCodes := (tafSections raw).2,
    type := ReportType.new (upper py!"TAF"), station := ⟨none, none⟩, time := time,
    modifier := Modifier.new none, valid := v, missing := Missing.new none,
    cancelled := Cancelled.new none }

/-- The text of the body handed to the parser. -/
def Taf.bodyText (raw : PyStr) : PyStr := sanitizeVisibility (tafSections raw).1

/-- What happens to the report once all changes are in. -/
def Taf.finish (r : Taf) : Taf :=
  { r with changes := r.changes.iter.2,
           unparsed := r.unparsed ++ r.changes.iter.1.flatMap ChangeForecasted.unparsed }

theorem Taf.new_eq (db : Database) (clock : Clock) (code : PyStr) (a : Args) (hc : code ≠ []) :
    Taf.new db clock code a = (do
      let time ← Time.new (clock 0) none none none none none none
      let v ← Valid.fromTaf none time.time
      let (r, un) ← parseSection (Taf.handlers db (clock 1) a) (Taf.bodyText (normalizeCode code))
        (Taf.start (normalizeCode code) time v)
      let r ← Taf.changesGo r.changesCodes { r with unparsed := r.unparsed ++ un }
      if r.finish.unparsed ≠ [] ∧ a.truncate then
        throw (Exc.parser (Metar.errorMessage r.finish.unparsed r.rawCode))
      return r.finish) := by
  unfold Taf.new
  rw [if_neg hc]
  simp only [bind_assoc, pure_bind, Taf.parseBody, Taf.parseChanges, Station.new, ok_bind]
  rfl

theorem Taf.parse_frame {db : Database} {now : Now} {a : Args} {text : PyStr} {r r' : Taf}
    {un : List PyStr} (h : parseSection (Taf.handlers db now a) text r = .ok (r', un)) :
    Taf.Frame r r' := by
  refine parseSection_invariant (P := fun x => Taf.Frame r x) ?_ ⟨rfl, rfl, rfl, rfl, rfl⟩ h
  intro hd hh g m s s' _ hp hr
  have := Taf.handlers_frame hh hr
  exact ⟨this.1.trans hp.1, this.2.trans hp.2, this.3.trans hp.3, this.4.trans hp.4,
    this.5.trans hp.5⟩

theorem Taf.new_ok {db : Database} {clock : Clock} {code : PyStr} {a : Args} {r : Taf}
    (h : Taf.new db clock code a = .ok r) :
    ∃ time v r1 un r2, code ≠ [] ∧ Time.new (clock 0) none none none none none none = .ok time ∧
      Valid.fromTaf none time.time = .ok v ∧
      parseSection (Taf.handlers db (clock 1) a) (Taf.bodyText (normalizeCode code))
        (Taf.start (normalizeCode code) time v) = .ok (r1, un) ∧
      Taf.Frame (Taf.start (normalizeCode code) time v) r1 ∧
      Taf.changesGo (tafSections (normalizeCode code)).2 { r1 with unparsed := un } = .ok r2 ∧
      r = r2.finish ∧ ¬ (r.unparsed ≠ [] ∧ a.truncate = true) := by
  by_cases hc : code = []
  · subst hc
    simp [Taf.new, throw_eq, error_bind] at h
  rw [Taf.new_eq db clock code a hc] at h
  simp only [bind_ok] at h
  obtain ⟨time, h0, v, h1, ⟨r1, un⟩, h2, r2, h3, h4⟩ := h
  have hf := Taf.parse_frame h2
  refine ⟨time, v, r1, un, r2, hc, h0, h1, h2, hf, ?_, ?_⟩
  · have e1 : r1.unparsed = [] := hf.unparsed
    have e2 : r1.changesCodes = (tafSections (normalizeCode code)).2 := hf.changesCodes
    simp only [e1, List.nil_append] at h3
    rw [← e2]
    exact h3
  · split at h4
    · cases h4
    · next hn =>
      simp only [pure_ok] at h4
      subst h4
      exact ⟨rfl, hn⟩

end Verif
