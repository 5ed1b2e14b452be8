import Verif.Spec.Visibility
import Verif.Spec.Calendar
import Verif.Spec.Sections
import Verif.Spec.Report

/-
Which exception the constructor of a report raises, read off the groups of the text.
-/

namespace Verif.Spec

/-- The outcome of groups that are read one after the other, each with the exception it raises if
any: the first exception, if any. -/
def firstOf (os : List (Option Exc)) : Option Exc := os.findSome? id

/-- A time group `DDHHMMZ` of the year `y` and the month `mo` is refused with `ValueError` if there is
no such instant. -/
def TimeRaises (y mo : Nat) (g : PyStr) (o : Option Exc) : Prop :=
  ∃ d h i, g = d ++ h ++ i ++ py!"Z" ∧ d.length = 2 ∧ h.length = 2 ∧ i.length = 2 ∧
    ((IsTime ⟨y, mo, digitsVal d, digitsVal h, digitsVal i⟩ ∧ o = none) ∨
     (¬ IsTime ⟨y, mo, digitsVal d, digitsVal h, digitsVal i⟩ ∧ o = some .value))

/-- A visibility group. -/
def VisRaises (g : PyStr) (o : Option Exc) : Prop :=
  ∃ w : VisGroup, w.WF ∧ g = w.text ∧ o = w.raises

/-- A minimum visibility group. -/
def MinVisRaises (g : PyStr) (o : Option Exc) : Prop :=
  ∃ w : VisGroup, minVisGrammar.WF w ∧ g = w.text ∧ o = w.raises

/-- The groups of the body of a METAR: the time has position 2, the visibilities 6 and 7. Nothing else
is refused. -/
def MetarRaises (y mo : Nat) (x : PyStr × Nat) (o : Option Exc) : Prop :=
  if x.2 = 2 then TimeRaises y mo x.1 o
  else if x.2 = 6 then VisRaises x.1 o
  else if x.2 = 7 then MinVisRaises x.1 o
  else o = none

/-- The groups `c` of a METAR trend: a period (positions 1 and 2) is refused with `TypeError` unless
an indicator (position 0) was taken; position 4 is the visibility. -/
def TrendRaises (c : List (PyStr × Nat)) (x : PyStr × Nat) (o : Option Exc) : Prop :=
  if x.2 = 1 ∨ x.2 = 2 then
    ((∃ g, (g, 0) ∈ c) ∧ o = none) ∨ ((∀ g, (g, 0) ∉ c) ∧ o = some .type)
  else if x.2 = 4 then VisRaises x.1 o
  else o = none

/-- The report was issued so late in the year 9999 that two hours later there is no date. -/
def TooLate (y mo : Nat) (c : List (PyStr × Nat)) : Prop :=
  ∃ d h i, (d ++ h ++ i ++ py!"Z", 2) ∈ c ∧ d.length = 2 ∧ h.length = 2 ∧ i.length = 2 ∧
    ¬ ∃ u, After ⟨y, mo, digitsVal d, digitsVal h, digitsVal i⟩ 120 u

/-- The outcome of a METAR from that of the body, of its trends, and whether it was issued too late
for trends. There is room for two trends; the third is read before it is refused. -/
inductive MetarOutcome (late : Prop) (body : Option Exc) (trends : List (Option Exc)) :
    Option Exc → Prop
  | body {e} : body = some e → MetarOutcome late body trends (some e)
  | late : body = none → late → trends ≠ [] → MetarOutcome late body trends (some .overflow)
  | trend {e} : body = none → ¬ late → firstOf (trends.take 3) = some e →
      MetarOutcome late body trends (some e)
  | range : body = none → ¬ late → firstOf (trends.take 3) = none → 3 ≤ trends.length →
      MetarOutcome late body trends (some .range)
  | fine : body = none → (trends ≠ [] → ¬ late) → firstOf (trends.take 3) = none →
      trends.length ≤ 2 → MetarOutcome late body trends none

/-! ### The trend section -/

/-- The first blank that is followed by the keyword and a blank: what is before and after it. -/
def firstCut (kw : PyStr) : PyStr → Option (PyStr × PyStr)
  | [] => none
  | c :: t =>
    if c = 32 ∧ kw ++ [32] <+: t then some ([], t)
    else (firstCut kw t).map fun p => (c :: p.1, p.2)

/-- The text is cut before the first keyword that stands between blanks. -/
def cutOnce (kw s : PyStr) : List PyStr :=
  match firstCut kw s with
  | none => [s]
  | some (a, b) => [a, b]

/-- The trends of a trend section: it is cut once at `TEMPO`, once at `BECMG` (in the first part that
has it) and at every bar; empty parts do not count. -/
def trendTexts (s : PyStr) : List PyStr :=
  let parts :=
    match firstCut py!"TEMPO" s with
    | none => cutOnce py!"BECMG" s
    | some (a, b) =>
      if firstCut py!"BECMG" a = none then a :: cutOnce py!"BECMG" b
      else cutOnce py!"BECMG" a ++ [b]
  (parts.flatMap (splitC 124)).filter (· ≠ [])

/-- What is read of a METAR: the outcome `o` of the groups of its body and of its trends. -/
def MetarRead (db : Database) (clock : Clock) (code : PyStr) (a : Args) (y mo : Nat)
    (o : Option Exc) : Prop :=
  ∃ (c : List (PyStr × Nat)) (os : List (Option Exc)) (cs : List (List (PyStr × Nat)))
    (oss : List (Option Exc)),
    Decodes (Metar.handlers db (clock 2) a) (metarGroups (metarSections (normalizeCode code)).1) c ∧
    Each (MetarRaises y mo) c os ∧
    Each (fun t c => Decodes ChangePeriod.handlers (bodyGroups (shown t)) c)
      (trendTexts (metarSections (normalizeCode code)).2.1) cs ∧
    Each (fun c o => ∃ os, Each (TrendRaises c) c os ∧ o = firstOf os) cs oss ∧
    MetarOutcome (TooLate y mo c) (firstOf os) oss o

end Verif.Spec
