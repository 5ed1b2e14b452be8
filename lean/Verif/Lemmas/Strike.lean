import Verif.Lemmas.Insert
import Verif.Lemmas.RunErr
import Verif.Lemmas.Complete
import Verif.Lemmas.Report

/-
The text of a section without the groups that were left unparsed.
-/

namespace Verif
open Spec

variable {σ : Type}

theorem consumed_cons_none (g : PyStr) (gs : List PyStr) (a : List (Option Nat)) :
    consumed (g :: gs) (none :: a) = consumed gs a := rfl

theorem consumed_cons_some (g : PyStr) (gs : List PyStr) (i : Nat) (a : List (Option Nat)) :
    consumed (g :: gs) (some i :: a) = (g, i) :: consumed gs a := rfl

/-- The groups that are decoded are decoded by the same handlers when they stand alone. -/
theorem assign_kept (hs : List (Handler σ)) (gs : List PyStr) (k : Nat) :
    assign hs k ((consumed gs (assign hs k gs)).map (·.1)) =
      (consumed gs (assign hs k gs)).map fun x => some x.2 := by
  induction gs generalizing k with
  | nil => rfl
  | cons g gs ih =>
    cases ht : tryHandlers (hs.drop k) g 0 with
    | none =>
      have : assign hs k (g :: gs) = none :: assign hs k gs := by simp [assign, ht]
      rw [this, consumed_cons_none]
      exact ih k
    | some x =>
      have : ∀ l, assign hs k (g :: l) = some (k + x.1 - 1) :: assign hs (k + x.1) l := by
        intro l; simp [assign, ht]
      rw [this, consumed_cons_some, List.map_cons, List.map_cons, this, ih]

theorem consumed_all (c : List (PyStr × Nat)) :
    consumed (c.map (·.1)) (c.map fun x => some x.2) = c ∧
      leftover (c.map (·.1)) (c.map fun x => some x.2) = [] := by
  induction c with
  | nil => exact ⟨rfl, rfl⟩
  | cons x c ih =>
    constructor
    · rw [List.map_cons, List.map_cons, consumed_cons_some, ih.1]
    · exact ih.2

theorem decodes_kept {hs : List (Handler σ)} {gs : List PyStr} {c : List (PyStr × Nat)}
    (hc : Decodes hs gs c) : Decodes hs (c.map (·.1)) c ∧ Leaves hs (c.map (·.1)) [] := by
  rw [decodes_iff] at hc
  have h := assign_kept hs gs 0
  rw [← hc] at h
  constructor
  · rw [decodes_iff, h, (consumed_all c).1]
  · exact ⟨_, assign_length hs 0 _, assign_firstApplicable hs _, by rw [h, (consumed_all c).2]⟩

/-- The decoded groups alone give the same state, and leave nothing. -/
theorem parseSection_kept {hs : List (Handler σ)} {t t' : PyStr} {c : List (PyStr × Nat)}
    (hc : Decodes hs (splitC 32 t) c) (ht : splitC 32 t' = c.map (·.1)) {f : σ → σ}
    (hf : ∀ h ∈ hs, ∀ m s, h.run m (f s) = (h.run m s).map f) (s : σ) :
    parseSection hs t' (f s) = (parseSection hs t s).map fun x => (f x.1, []) := by
  have e : parseSection hs t' (f s) = (parseSection hs t' s).map fun x => (f x.1, x.2) := by
    unfold parseSection
    rw [parseGo_map hf]
  rw [e]
  obtain ⟨o, h1, h2⟩ := @parseSection_eq σ hs t s
  obtain ⟨o', h1', h2'⟩ := @parseSection_eq σ hs t' s
  have hk := assign_kept hs (splitC 32 t) 0
  rw [decodes_iff] at hc
  rw [← hc] at hk h1
  rw [ht, hk] at h1' h2'
  rw [(consumed_all c).1] at h1'
  rw [(consumed_all c).2] at h2'
  rw [h2, h2', h1.det h1']
  cases o' <;> rfl

theorem parseSection_leaves {hs : List (Handler σ)} {t : PyStr} {s s' : σ} {un : List PyStr}
    (h : parseSection hs t s = .ok (s', un)) : Leaves hs (splitC 32 t) un := by
  obtain ⟨o, h1, h2⟩ := @parseSection_eq σ hs t s
  rw [h2] at h
  cases o with
  | error e => cases h
  | ok x =>
    simp only [except_map_ok, Except.ok.injEq, Prod.mk.injEq] at h
    exact ⟨_, assign_length hs 0 _, assign_firstApplicable hs _, h.2.symm⟩

theorem Metar.new_kept (db : Database) (clock : Clock) (code code' : PyStr) (a : Args)
    (hc : code ≠ []) (hc' : code' ≠ []) (ha : a.truncate = false)
    {c : List (PyStr × Nat)}
    (hd : Decodes (Metar.handlers db (clock 2) a) (metarGroups (metarSections (normalizeCode code)).1) c)
    (hb : metarGroups (metarSections (normalizeCode code')).1 = c.map (·.1))
    (ht : (metarSections (normalizeCode code')).2.1 = (metarSections (normalizeCode code)).2.1) :
    (∀ r, Metar.new db clock code a = .ok r → ∃ un u', Leaves (Metar.handlers db (clock 2) a)
        (metarGroups (metarSections (normalizeCode code)).1) un ∧ r.unparsed = un ++ u' ∧
      Metar.new db clock code' a = .ok { r with
        rawCode := normalizeCode code'
        sections := [(metarSections (normalizeCode code')).1, r.trend,
          (metarSections (normalizeCode code')).2.2]
        unparsed := u' }) ∧
    (∀ e, Metar.new db clock code a = .error e → Metar.new db clock code' a = .error e) := by
  rw [Metar.new_eq db clock code a hc, Metar.new_eq db clock code' a hc']
  generalize normalizeCode code = raw at *
  generalize normalizeCode code' = raw' at *
  cases Time.new (clock 0) none none none none none none with
  | error e0 =>
    simp only [error_bind]
    exact ⟨(by intro r h; cases h), fun e h => h⟩
  | ok t0 =>
  simp only [ok_bind]
  cases Time.fromMetar (clock 1) none a.year a.month with
  | error e0 =>
    simp only [error_bind]
    exact ⟨(by intro r h; cases h), fun e h => h⟩
  | ok time =>
  simp only [ok_bind]
  generalize hss : [(metarSections raw').1, (metarSections raw).2.1, (metarSections raw').2.2] = ss
  have es : Metar.start raw' time = (Metar.start raw time).relabel raw' ss := by
    unfold Metar.start Metar.relabel
    rw [← hss, ht]
  rw [es]
  have hp := parseSection_kept (t := Metar.bodyText raw) (t' := Metar.bodyText raw')
    (f := Metar.relabel raw' ss) hd hb
    (fun h hh m s => Metar.handlers_relabel hh m s) (Metar.start raw time)
  rw [hp]
  cases h1 : parseSection (Metar.handlers db (clock 2) a) (Metar.bodyText raw) (Metar.start raw time) with
  | error e0 =>
    exact ⟨(by intro r h; cases h), fun e h => h⟩
  | ok x =>
  obtain ⟨r1, un⟩ := x
  have hl : Leaves (Metar.handlers db (clock 2) a) (metarGroups (metarSections raw).1) un :=
    parseSection_leaves h1
  simp only [except_map_ok, ok_bind]
  have hf := Metar.parse_frame h1
  have e1 : r1.trend = (metarSections raw).2.1 := by
    unfold Metar.trend
    rw [hf.sections]; rfl
  have e2 : (r1.relabel raw' ss).trend = r1.trend := by
    rw [e1, ← hss]
    rfl
  rw [e2]
  have e3 : { r1.relabel raw' ss with
      unparsed := (r1.relabel raw' ss).unparsed ++ [] } =
      ({ r1 with unparsed := r1.unparsed ++ [] } : Metar).relabel raw' ss := rfl
  rw [e3, Metar.trendsGo_relabel, Metar.trendsGo_unparsed (r1.unparsed ++ un) _ r1,
    Metar.trendsGo_unparsed (r1.unparsed ++ []) _ r1]
  cases hg : Metar.trendsGo (splitSentence r1.trend [py!"TEMPO", py!"BECMG"] 1 .both) r1 with
  | error e0 =>
    exact ⟨(by intro r h; cases h), fun e h => h⟩
  | ok r2 =>
  simp only [except_map_ok, ok_bind]
  obtain ⟨k1, k2, k3⟩ := Metar.trendsGo_frame hg
  have hu : r1.unparsed = [] := hf.unparsed
  rw [hu]
  simp only [List.nil_append]
  rw [if_neg (by simp [ha]), if_neg (by simp [ha])]
  constructor
  · intro r h
    cases h
    refine ⟨un, r2.weatherTrends.iter.1.flatMap ChangePeriod.unparsed, hl, rfl, ?_⟩
    have : Metar.trend (Metar.finish { r2 with unparsed := un }) = (metarSections raw).2.1 := by
      unfold Metar.trend
      show (r2.sections.getD 1 []) = _
      rw [k2, hf.sections]
      rfl
    rw [this, hss]
    rfl
  · intro e h
    cases h

theorem Taf.new_kept (db : Database) (clock : Clock) (code code' : PyStr) (a : Args)
    (hc : code ≠ []) (hc' : code' ≠ []) (ha : a.truncate = false)
    {c : List (PyStr × Nat)}
    (hd : Decodes (Taf.handlers db (clock 1) a) (bodyGroups (tafSections (normalizeCode code)).1) c)
    (hb : bodyGroups (tafSections (normalizeCode code')).1 = c.map (·.1))
    (ht : (tafSections (normalizeCode code')).2 = (tafSections (normalizeCode code)).2) :
    (∀ r, Taf.new db clock code a = .ok r → ∃ un u', Leaves (Taf.handlers db (clock 1) a)
        (bodyGroups (tafSections (normalizeCode code)).1) un ∧ r.unparsed = un ++ u' ∧
      Taf.new db clock code' a = .ok { r with
        rawCode := normalizeCode code', body := (tafSections (normalizeCode code')).1
        unparsed := u' }) ∧
    (∀ e, Taf.new db clock code a = .error e → Taf.new db clock code' a = .error e) := by
  rw [Taf.new_eq db clock code a hc, Taf.new_eq db clock code' a hc']
  generalize normalizeCode code = raw at *
  generalize normalizeCode code' = raw' at *
  cases Time.new (clock 0) none none none none none none with
  | error e0 =>
    simp only [error_bind]
    exact ⟨(by intro r h; cases h), fun e h => h⟩
  | ok time =>
  simp only [ok_bind]
  cases Valid.fromTaf none time.time with
  | error e0 =>
    simp only [error_bind]
    exact ⟨(by intro r h; cases h), fun e h => h⟩
  | ok v =>
  simp only [ok_bind]
  have es : Taf.start raw' time v = (Taf.start raw time v).relabel raw' (tafSections raw').1 := by
    unfold Taf.start Taf.relabel
    rw [ht]
  rw [es]
  have hp := parseSection_kept (t := Taf.bodyText raw) (t' := Taf.bodyText raw')
    (f := Taf.relabel raw' (tafSections raw').1) hd hb
    (fun h hh m s => Taf.handlers_relabel hh m s) (Taf.start raw time v)
  rw [hp]
  cases h1 : parseSection (Taf.handlers db (clock 1) a) (Taf.bodyText raw) (Taf.start raw time v) with
  | error e0 =>
    exact ⟨(by intro r h; cases h), fun e h => h⟩
  | ok x =>
  obtain ⟨r1, un⟩ := x
  have hl : Leaves (Taf.handlers db (clock 1) a) (bodyGroups (tafSections raw).1) un :=
    parseSection_leaves h1
  simp only [except_map_ok, ok_bind]
  have hf := Taf.parse_frame h1
  have hu : r1.unparsed = [] := hf.unparsed
  have k1 := Taf.changesGo_relabel r1.rawCode r1.body un r1.changesCodes r1
  have k2 := Taf.changesGo_relabel raw' (tafSections raw').1 [] r1.changesCodes r1
  have e1 : ({ r1 with unparsed := r1.unparsed ++ un } : Taf) =
      { r1 with rawCode := r1.rawCode, body := r1.body, unparsed := un } := by rw [hu]; rfl
  have e2 : ({ r1.relabel raw' (tafSections raw').1 with
        unparsed := (r1.relabel raw' (tafSections raw').1).unparsed ++ [] } : Taf) =
      { r1 with rawCode := raw', body := (tafSections raw').1, unparsed := [] } := by
    show ({ r1.relabel raw' (tafSections raw').1 with unparsed := r1.unparsed ++ [] } : Taf) = _
    rw [hu]; rfl
  have e3 : (r1.relabel raw' (tafSections raw').1).changesCodes = r1.changesCodes := rfl
  rw [e1, e2, e3, k1, k2]
  cases Taf.changesGo r1.changesCodes r1 with
  | error e0 =>
    exact ⟨(by intro r h; cases h), fun e h => h⟩
  | ok r2 =>
  simp only [except_map_ok, ok_bind]
  rw [if_neg (by simp [ha]), if_neg (by simp [ha])]
  constructor
  · intro r h
    cases h
    exact ⟨un, r2.changes.iter.1.flatMap ChangeForecasted.unparsed, hl, rfl, rfl⟩
  · intro e h
    cases h

theorem ChangePeriod.new_kept (code code' : PyStr) (time : DT)
    {c : List (PyStr × Nat)}
    (hd : Decodes ChangePeriod.handlers (bodyGroups (replace code py!"_" py!" ")) c)
    (hb : bodyGroups (replace code' py!"_" py!" ") = c.map (·.1)) :
    (∀ p, ChangePeriod.new code time = .ok p → Leaves ChangePeriod.handlers (bodyGroups (replace code py!"_" py!" ")) p.unparsed ∧
      ChangePeriod.new code' time =
        .ok { p with code := some (replace code' py!"_" py!" "), unparsed := [] }) ∧
    (∀ e, ChangePeriod.new code time = .error e → ChangePeriod.new code' time = .error e) := by
  unfold ChangePeriod.new
  dsimp only
  cases TrendIndicator.new none time with
  | error e0 => exact ⟨(by intro r h; cases h), fun e h => h⟩
  | ok ind =>
  simp only [ok_bind]
  have hp := parseSection_kept
    (t := sanitizeVisibility (replace code py!"_" py!" ")) (t' := sanitizeVisibility (replace code' py!"_" py!" "))
    (f := fun p : ChangePeriod => { p with code := some (replace code' py!"_" py!" ") }) hd hb
    (fun h hh m s => ChangePeriod.handlers_relabel hh m s)
    { code := some (replace code py!"_" py!" "), time := time, indicator := ind }
  dsimp only at hp
  rw [hp]
  cases h1 : parseSection ChangePeriod.handlers (sanitizeVisibility (replace code py!"_" py!" "))
      { code := some (replace code py!"_" py!" "), time := time, indicator := ind } with
  | error e0 =>
    exact ⟨(by intro r h; cases h), fun e h => h⟩
  | ok x =>
  obtain ⟨r1, un⟩ := x
  have hl := parseSection_leaves h1
  have hu : r1.unparsed = [] := by
    obtain ⟨asg, -, -, e3, -, -⟩ := parseSection_reading h1
    exact e3.keep (get := fun p => p.unparsed) fun x _ h hh m s s' hs =>
      (ChangePeriod.effect hh hs).unparsed
  constructor
  · intro r h
    cases h
    refine ⟨?_, ?_⟩
    · rw [hu]; exact hl
    · rw [except_map_ok, ok_bind]; simp [hu]; rfl
  · intro e h
    cases h

theorem ChangeForecasted.new_kept (code code' : PyStr) (valid : Valid)
    {c : List (PyStr × Nat)}
    (hd : Decodes ChangeForecasted.handlers (changeGroups (replace code py!"_" py!" ")) c)
    (hb : changeGroups (replace code' py!"_" py!" ") = c.map (·.1)) :
    (∀ p, ChangeForecasted.new code valid = .ok p → Leaves ChangeForecasted.handlers (changeGroups (replace code py!"_" py!" ")) p.unparsed ∧
      ChangeForecasted.new code' valid =
        .ok { p with code := replace code' py!"_" py!" ", unparsed := [] }) ∧
    (∀ e, ChangeForecasted.new code valid = .error e → ChangeForecasted.new code' valid = .error e) := by
  unfold ChangeForecasted.new
  dsimp only
  cases TafIndicator.new none valid with
  | error e0 => exact ⟨(by intro r h; cases h), fun e h => h⟩
  | ok ind =>
  simp only [ok_bind]
  have hp := parseSection_kept
    (t := sanitizeVisibility (sanitizeChangeIndicator (replace code py!"_" py!" "))) (t' := sanitizeVisibility (sanitizeChangeIndicator (replace code' py!"_" py!" ")))
    (f := fun p : ChangeForecasted => { p with code := replace code' py!"_" py!" " }) hd hb
    (fun h hh m s => ChangeForecasted.handlers_relabel hh m s)
    { code := replace code py!"_" py!" ", valid := valid, indicator := ind }
  dsimp only at hp
  rw [hp]
  cases h1 : parseSection ChangeForecasted.handlers
      (sanitizeVisibility (sanitizeChangeIndicator (replace code py!"_" py!" ")))
      { code := replace code py!"_" py!" ", valid := valid, indicator := ind } with
  | error e0 =>
    exact ⟨(by intro r h; cases h), fun e h => h⟩
  | ok x =>
  obtain ⟨r1, un⟩ := x
  have hl := parseSection_leaves h1
  have hu : r1.unparsed = [] := by
    obtain ⟨asg, -, -, e3, -, -⟩ := parseSection_reading h1
    exact e3.keep (get := fun p => p.unparsed) fun x _ h hh m s s' hs =>
      (ChangeForecasted.effect hh hs).unparsed
  constructor
  · intro r h
    cases h
    refine ⟨?_, ?_⟩
    · rw [hu]; exact hl
    · rw [except_map_ok, ok_bind]; simp [hu]; rfl
  · intro e h
    cases h

theorem kept_sublist {σ : Type} {hs : List (Handler σ)} {gs : List PyStr} {c : List (PyStr × Nat)}
    (hc : Decodes hs gs c) : (c.map (·.1)).Sublist gs := by
  rw [(decodes_iff _ _ _).1 hc]
  clear hc
  generalize assign hs 0 gs = a
  induction gs generalizing a with
  | nil => cases a <;> exact .slnil
  | cons g gs ih =>
    cases a with
    | nil => exact List.nil_sublist _
    | cons o a =>
      cases o with
      | none => exact .cons _ (ih a)
      | some i => exact .cons_cons _ (ih a)

end Verif
