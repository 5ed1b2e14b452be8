import Verif.Spec.Refusal

/-
Which exception the constructor of a TAF raises, read off the groups of the text.
-/

namespace Verif.Spec

/-- The visibility of the body of a TAF. Nothing has to follow it in the pattern, so what is decoded is
a visibility the group begins with; it is refused if it begins with one that is. -/
def TafVisRaises (g : PyStr) (o : Option Exc) : Prop :=
  (∃ w e, tafVisGrammar.WF w ∧ w.text <+: g ∧ w.raises = some e ∧ o = some e) ∨
  ((∀ w, tafVisGrammar.WF w → w.text <+: g → w.raises = none) ∧ o = none)

/-- The temperatures before position `k` with the same first two letters, `TX` or `TN`. -/
def sameBefore (c : List (PyStr × Nat)) (g : PyStr) (k : Nat) : List (PyStr × Nat) :=
  c.filter fun y => decide (16 ≤ y.2) && decide (y.2 < k) && y.1.take 2 == g.take 2

/-- The groups `c` of the body of a TAF: the time has position 3, the visibility 8, the temperatures 16
to 19. There is room for two temperatures of a kind. Nothing else is refused. -/
def TafRaises (y mo : Nat) (c : List (PyStr × Nat)) (x : PyStr × Nat) (o : Option Exc) : Prop :=
  if x.2 = 3 then TimeRaises y mo x.1 o
  else if x.2 = 8 then TafVisRaises x.1 o
  else if 16 ≤ x.2 ∧ 2 ≤ (sameBefore c x.1 x.2).length then o = some .range
  else o = none

/-- The groups `c` of a change: a valid period (position 1) is refused with `AttributeError` unless an
indicator (position 0) was taken; position 3 is the visibility. -/
def ChangeRaises (c : List (PyStr × Nat)) (x : PyStr × Nat) (o : Option Exc) : Prop :=
  if x.2 = 1 then
    ((∃ g, (g, 0) ∈ c) ∧ o = none) ∨ ((∀ g, (g, 0) ∉ c) ∧ o = some .attribute)
  else if x.2 = 3 then VisRaises x.1 o
  else o = none

/-- What matters of a change: its text, its indicator if it has one, the exception it raises if any. -/
structure ChangeFacts where
  text : PyStr
  indicator : Option PyStr
  raises : Option Exc

/-- The facts about the change with the text `t`. -/
def ChangeRead (t : PyStr) (f : ChangeFacts) : Prop :=
  ∃ c os, Decodes ChangeForecasted.handlers (changeGroups (shown t)) c ∧
    Each (ChangeRaises c) c os ∧ f.text = shown t ∧ f.raises = firstOf os ∧
    ((∃ g, (g, 0) ∈ c ∧ f.indicator = some g) ∨ ((∀ g, (g, 0) ∉ c) ∧ f.indicator = none))

/-- A change that begins a period of its own: the one before it ends there. -/
def ChangeFacts.begins (f : ChangeFacts) : Prop := py!"FM" <+: f.text ∨ py!"BECMG" <+: f.text

/-- Looking back over `PROB` and `TEMPO` for the change that ends, one without indicator is met. -/
def MeetsNone (earlier : List (Option PyStr)) : Prop :=
  ∃ pre post, earlier = pre ++ none :: post ∧
    ∀ i ∈ post, ∃ g, i = some g ∧ (py!"PROB" <+: g ∨ py!"TEMPO" <+: g)

/-- The outcome of the changes, after the changes with the given indicators. There is room for eight. -/
inductive ChangesOutcome : List (Option PyStr) → List ChangeFacts → Option Exc → Prop
  | nil {earlier} : ChangesOutcome earlier [] none
  | read {earlier f rest e} : f.raises = some e → ChangesOutcome earlier (f :: rest) (some e)
  | none {earlier f rest} : f.raises = none → f.begins → MeetsNone earlier →
      ChangesOutcome earlier (f :: rest) (some .attribute)
  | range {earlier f rest} : f.raises = none → ¬ (f.begins ∧ MeetsNone earlier) → 8 ≤ earlier.length →
      ChangesOutcome earlier (f :: rest) (some .range)
  | next {earlier f rest o} : f.raises = none → ¬ (f.begins ∧ MeetsNone earlier) → earlier.length < 8 →
      ChangesOutcome (earlier ++ [f.indicator]) rest o → ChangesOutcome earlier (f :: rest) o

/-- What is read of a TAF: the outcome `o` of the groups of its body and of its changes. -/
def TafRead (db : Database) (clock : Clock) (code : PyStr) (a : Args) (y mo : Nat)
    (o : Option Exc) : Prop :=
  ∃ (c : List (PyStr × Nat)) (os : List (Option Exc)) (fs : List ChangeFacts),
    Decodes (Taf.handlers db (clock 1) a) (bodyGroups (tafSections (normalizeCode code)).1) c ∧
    Each (TafRaises y mo c) c os ∧
    Each ChangeRead ((tafSections (normalizeCode code)).2.filter (· ≠ [])) fs ∧
    ((∃ e, firstOf os = some e ∧ o = some e) ∨ (firstOf os = none ∧ ChangesOutcome [] fs o))

end Verif.Spec
