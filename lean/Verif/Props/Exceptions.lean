import Verif.Lemmas.Raises
import Verif.Props.Text
import Verif.Lemmas.Decoded

/-
C04, C07, C52: which exceptions the constructors `Metar(...)` and `Taf(...)` raise, and what
`truncate` changes.
-/

namespace Verif.Props

/-- The exception of a construction, if it failed. -/
def errOf {α : Type} : Except Exc α → Option Exc
  | .ok _ => none
  | .error e => some e

/-- A sample database and clock (15 June 2024, 12:00) for the concrete cases. -/
def sampleDb : Database := ⟨[], []⟩
def sampleClock : Clock := fun _ => ⟨2024, 6⟩

def metarErr (code : PyStr) (a : Args := {}) : Option Exc :=
  errOf (Metar.new sampleDb sampleClock code a)
def tafErr (code : PyStr) (a : Args := {}) : Option Exc :=
  errOf (Taf.new sampleDb sampleClock code a)

/-- The exceptions `Metar(...)` can raise on a non-empty text, besides `ParserError`. -/
def metarExceptions : List Exc := [.value, .type, .zeroDiv, .range, .overflow]

/-- The exceptions `Taf(...)` can raise on a non-empty text, besides `ParserError`. -/
def tafExceptions : List Exc := [.value, .type, .zeroDiv, .range, .overflow, .attribute]

/-- C52, METAR. On a non-empty text the constructor returns a report or raises `ValueError`,
`TypeError`, `ZeroDivisionError`, `RangeError`, `OverflowError`, or (only with `truncate`)
`ParserError`. No `KeyError`, `IndexError`, `AttributeError` and no inner `AssertionError`. -/
theorem C52_metar (db : Database) (clock : Clock) (code : PyStr) (a : Args) (hc : code ≠ [])
    (e : Exc) (h : Metar.new db clock code a = .error e) :
    e ∈ metarExceptions ∨ a.truncate = true ∧ ∃ msg, e = .parser msg := by
  have hvis : ∀ e, VisExc e → e ∈ metarExceptions ∨ a.truncate = true ∧ ∃ msg, e = .parser msg := by
    rintro e (rfl | rfl | rfl) <;> simp [metarExceptions]
  rw [Metar.new_eq db clock code a hc] at h
  revert h e
  refine Raises.bind ((Time.new_raises _ _ _ _ _ _ _).mono fun e h => hvis e (.inl h)) fun _ _ =>
    Raises.bind ((Time.fromMetar_raises _ _ _ _).mono fun e h => hvis e (.inl h)) fun t _ =>
    Raises.bind ((Metar.parse_raises _ _ _ _ (Metar.start_room _ _)).mono hvis) fun x _ =>
    Raises.bind ((Metar.trendsGo_raises _ _).mono ?_) fun r _ => ?_
  · rintro e ((h | rfl) | rfl)
    · exact hvis e h
    · simp [metarExceptions]
    · simp [metarExceptions]
  · split
    · next ht => exact Raises.bind (Raises.throw (.inr ⟨ht.2, _, rfl⟩)) fun _ _ => Raises.pure _
    · exact Raises.bind (Raises.pure _) fun _ _ => Raises.pure _

/-- C52, TAF. As for METAR, with `AttributeError` in addition. -/
theorem C52_taf (db : Database) (clock : Clock) (code : PyStr) (a : Args) (hc : code ≠ [])
    (e : Exc) (h : Taf.new db clock code a = .error e) :
    e ∈ tafExceptions ∨ a.truncate = true ∧ ∃ msg, e = .parser msg := by
  have hvis : ∀ e, VisExc e → e ∈ tafExceptions ∨ a.truncate = true ∧ ∃ msg, e = .parser msg := by
    rintro e (rfl | rfl | rfl) <;> simp [tafExceptions]
  have hraw : 10 ∉ normalizeCode code := normalizeCode_no_newline code
  rw [Taf.new_eq db clock code a hc] at h
  revert h e
  refine Raises.bind ((Time.new_raises _ _ _ _ _ _ _).mono fun e h => hvis e (.inl h)) fun t _ =>
    Raises.bind ((Valid.fromTaf_none_raises _).mono fun e h => ?_) fun v _ =>
    Raises.bind ((Taf.parse_raises _ _ _ _ (Taf.start_room _ _ _)).mono ?_) fun x hx =>
    Raises.bind ((Taf.changesGo_raises ?_ _).mono ?_) fun r _ => ?_
  · simp [h, tafExceptions]
  · rintro e (h | rfl | rfl)
    · exact hvis e h
    · simp [tafExceptions]
    · simp [tafExceptions]
  · rw [(Taf.parse_frame hx).changesCodes]
    exact (tafSections_no_newline hraw).2
  · rintro e ((h | rfl | rfl) | rfl)
    · exact hvis e h
    · simp [tafExceptions]
    · simp [tafExceptions]
    · simp [tafExceptions]
  · split
    · next ht => exact Raises.bind (Raises.throw (.inr ⟨ht.2, _, rfl⟩)) fun _ _ => Raises.pure _
    · exact Raises.bind (Raises.pure _) fun _ _ => Raises.pure _

/-- C52, the lists are exact: each exception is raised by some text. -/
theorem C52_metar_reached :
    metarErr py!"METAR SKBO 310000Z" = some .value ∧
    metarErr py!"METAR SKBO 1/2KM" = some .type ∧
    metarErr py!"METAR SKBO 1/0SM" = some .zeroDiv ∧
    metarErr py!"METAR SKBO NOSIG TEMPO RA BECMG SN" = some .range ∧
    metarErr py!"METAR SKBO 312230Z NOSIG" { year := some 9999, month := some 12 } =
      some .overflow := by decide +kernel

theorem C52_taf_reached :
    tafErr py!"TAF SKBO 310000Z" = some .value ∧
    tafErr py!"TAF SKBO 1/2KM" = some .type ∧
    tafErr py!"TAF SKBO 1/0SM" = some .zeroDiv ∧
    tafErr py!"TAF SKBO TX20/1512Z TX21/1512Z TX22/1512Z" = some .range ∧
    tafErr py!"TAF SKBO 312230Z 0100/0106" { year := some 9999, month := some 12 } =
      some .overflow ∧
    tafErr py!"TAF SKBO 150000Z FMABC 1500/1506" = some .attribute := by decide +kernel

/-- C04. `AssertionError` is raised exactly for the empty text; none of the inner assertions can be
triggered. -/
theorem C04_assertion_metar (db : Database) (clock : Clock) (code : PyStr) (a : Args) :
    Metar.new db clock code a = .error .assertion ↔ code = [] := by
  constructor
  · intro h
    apply Classical.byContradiction
    intro hc
    rcases C52_metar db clock code a hc _ h with h | ⟨_, _, h⟩
    · simp [metarExceptions] at h
    · cases h
  · rintro rfl
    rfl

theorem C04_assertion_taf (db : Database) (clock : Clock) (code : PyStr) (a : Args) :
    Taf.new db clock code a = .error .assertion ↔ code = [] := by
  constructor
  · intro h
    apply Classical.byContradiction
    intro hc
    rcases C52_taf db clock code a hc _ h with h | ⟨_, _, h⟩
    · simp [tafExceptions] at h
    · cases h
  · rintro rfl
    rfl

/-- A blank text is not the empty text: it is accepted. -/
example : metarErr py!" " = none ∧ tafErr py!"\n" = none ∧ metarErr [] = some .assertion := by
  decide +kernel

/-- The message of a `ParserError`. -/
def parserMessage (unparsed : List PyStr) (rawCode : PyStr) : PyStr :=
  py!"failed while processing " ++ join py!", " unparsed ++ py!" from: " ++ rawCode

/-- C07. With `truncate` the outcome is the one without it, except that a report with unparsed
groups becomes a `ParserError` naming them. -/
theorem C07_truncate_metar (db : Database) (clock : Clock) (code : PyStr) (y m : Option Int) :
    (∀ e, Metar.new db clock code ⟨y, m, false⟩ = .error e →
      Metar.new db clock code ⟨y, m, true⟩ = .error e ∧ ∀ msg, e ≠ .parser msg) ∧
    (∀ r, Metar.new db clock code ⟨y, m, false⟩ = .ok r →
      (r.unparsed = [] → Metar.new db clock code ⟨y, m, true⟩ = .ok r) ∧
      (r.unparsed ≠ [] → Metar.new db clock code ⟨y, m, true⟩ =
        .error (.parser (parserMessage r.unparsed r.rawCode)))) := by
  by_cases hc : code = []
  · subst hc
    refine ⟨fun e h => ⟨h, ?_⟩, fun r h => by cases h⟩
    cases h
    intro _ h; cases h
  rw [Metar.new_eq db clock code _ hc, Metar.new_eq db clock code _ hc]
  constructor
  · intro e h
    refine ⟨?_, fun msg hm => ?_⟩
    · simp only [bind_error] at h ⊢
      rcases h with h | ⟨t0, h0, h⟩
      · exact .inl h
      refine .inr ⟨t0, h0, ?_⟩
      rcases h with h | ⟨t, h1, h⟩
      · exact .inl h
      refine .inr ⟨t, h1, ?_⟩
      rcases h with h | ⟨x, h2, h⟩
      · exact .inl h
      refine .inr ⟨x, h2, ?_⟩
      rcases h with h | ⟨r, h3, h⟩
      · exact .inl h
      simp [pure, Except.pure] at h
    · subst hm
      rw [← Metar.new_eq db clock code _ hc] at h
      rcases C52_metar db clock code _ hc _ h with h | ⟨h, _⟩
      · simp [metarExceptions] at h
      · cases h
  · intro r h
    simp only [bind_ok] at h
    obtain ⟨t0, h0, t, h1, x, h2, r2, h3, h4⟩ := h
    simp only [Bool.false_eq_true, and_false, if_false] at h4
    have h4 : r2.finish = r := by simpa [pure, Except.pure] using h4
    have e0 := h0
    have e1 : Time.fromMetar (clock 1) none (Args.mk y m true).year (Args.mk y m true).month = .ok t := h1
    have e2 : parseSection (Metar.handlers db (clock 2) ⟨y, m, true⟩)
        (Metar.bodyText (normalizeCode code)) (Metar.start (normalizeCode code) t) = .ok x := h2
    rw [e0, ok_bind, e1, ok_bind, e2, ok_bind]
    simp only
    rw [h3, ok_bind, h4]
    have hraw : r2.rawCode = r.rawCode := by rw [← h4]; rfl
    constructor
    · intro hu
      rw [if_neg (by simp [hu])]
      rfl
    · intro hu
      rw [if_pos ⟨hu, trivial⟩, hraw]
      rfl

theorem C07_truncate_taf (db : Database) (clock : Clock) (code : PyStr) (y m : Option Int) :
    (∀ e, Taf.new db clock code ⟨y, m, false⟩ = .error e →
      Taf.new db clock code ⟨y, m, true⟩ = .error e ∧ ∀ msg, e ≠ .parser msg) ∧
    (∀ r, Taf.new db clock code ⟨y, m, false⟩ = .ok r →
      (r.unparsed = [] → Taf.new db clock code ⟨y, m, true⟩ = .ok r) ∧
      (r.unparsed ≠ [] → Taf.new db clock code ⟨y, m, true⟩ =
        .error (.parser (parserMessage r.unparsed r.rawCode)))) := by
  by_cases hc : code = []
  · subst hc
    refine ⟨fun e h => ⟨h, ?_⟩, fun r h => by cases h⟩
    cases h
    intro _ h; cases h
  rw [Taf.new_eq db clock code _ hc, Taf.new_eq db clock code _ hc]
  constructor
  · intro e h
    refine ⟨?_, fun msg hm => ?_⟩
    · simp only [bind_error] at h ⊢
      rcases h with h | ⟨t0, h0, h⟩
      · exact .inl h
      refine .inr ⟨t0, h0, ?_⟩
      rcases h with h | ⟨t, h1, h⟩
      · exact .inl h
      refine .inr ⟨t, h1, ?_⟩
      rcases h with h | ⟨x, h2, h⟩
      · exact .inl h
      refine .inr ⟨x, h2, ?_⟩
      rcases h with h | ⟨r, h3, h⟩
      · exact .inl h
      simp [pure, Except.pure] at h
    · subst hm
      rw [← Taf.new_eq db clock code _ hc] at h
      rcases C52_taf db clock code _ hc _ h with h | ⟨h, _⟩
      · simp [tafExceptions] at h
      · cases h
  · intro r h
    simp only [bind_ok] at h
    obtain ⟨t0, h0, v, h1, x, h2, r2, h3, h4⟩ := h
    simp only [Bool.false_eq_true, and_false, if_false] at h4
    have h4 : r2.finish = r := by simpa [pure, Except.pure] using h4
    have e2 : parseSection (Taf.handlers db (clock 1) ⟨y, m, true⟩)
        (Taf.bodyText (normalizeCode code)) (Taf.start (normalizeCode code) t0 v) = .ok x := h2
    rw [h0, ok_bind, h1, ok_bind, e2, ok_bind]
    simp only
    rw [h3, ok_bind, h4]
    have hraw : r2.rawCode = r.rawCode := by rw [← h4]; rfl
    constructor
    · intro hu
      rw [if_neg (by simp [hu])]
      rfl
    · intro hu
      rw [if_pos ⟨hu, trivial⟩, hraw]
      rfl

/-- Concrete cases: a report with an unknown word and one without. -/
example :
    metarErr py!"METAR SKBO 151200Z XYZ  FOO" = none ∧
    metarErr py!"METAR SKBO 151200Z XYZ  FOO" { truncate := true } = some (.parser
      py!"failed while processing XYZ, FOO from: METAR SKBO 151200Z XYZ FOO") ∧
    metarErr py!"METAR SKBO 151200Z" { truncate := true } = none ∧
    tafErr py!"TAF SKBO 151200Z 1512/1612 XYZ" { truncate := true } = some (.parser
      py!"failed while processing XYZ from: TAF SKBO 151200Z 1512/1612 XYZ") := by decide +kernel

end Verif.Props
