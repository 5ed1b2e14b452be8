import Verif.Spec.Text

/-
Specification of the cutting of a report into sections, independent of substitutions: a text is cut
at the blanks that are followed by one of a list of opening words.
-/

namespace Verif.Spec

/-- The text begins with one of the opening words. -/
def Opens (kws : List PyStr) (t : PyStr) : Prop := ∃ kw ∈ kws, kw <+: t

/-- Somewhere in the text there is a blank followed by an opening word. -/
def Holds (kws : List PyStr) (t : PyStr) : Prop :=
  ∃ pre post, t = pre ++ 32 :: post ∧ Opens kws post

/-- `ps` are the pieces of `s`: joined by blanks they spell `s`, every piece but the first begins
with an opening word, and no piece can be cut further. -/
structure Pieces (kws : List PyStr) (s : PyStr) (ps : List PyStr) : Prop where
  ne : ps ≠ []
  spells : join [32] ps = s
  opens : ∀ p ∈ ps.tail, Opens kws p
  whole : ∀ p ∈ ps, ¬ Holds kws p

instance (kws : List PyStr) (t : PyStr) : Decidable (Opens kws t) := by
  unfold Opens; infer_instance

/-- The words that open a trend of a METAR. -/
def trendWords : List PyStr := [py!"NOSIG", py!"TEMPO", py!"BECMG"]

/-- The words that open a trend or the remarks of a METAR. -/
def metarWords : List PyStr := [py!"NOSIG", py!"TEMPO", py!"BECMG", py!"RMK"]

/-- The words that open a change of a TAF. -/
def tafWords : List PyStr := [py!"FM", py!"TEMPO", py!"BECMG", py!"PROB"]

/-- A word of a report without a bar. -/
def Unbarred (w : PyStr) : Prop := Word w ∧ 124 ∉ w

/-- A part of a report: an opening word followed by words that open nothing. -/
def Part (first all : List PyStr) (p : PyStr × List PyStr) : Prop :=
  Unbarred p.1 ∧ Opens first p.1 ∧ ∀ w ∈ p.2, Unbarred w ∧ ¬ Opens all w

/-- The words of a METAR: body, trends, remarks. -/
def metarText (body : List PyStr) (trends : List (PyStr × List PyStr))
    (remark : Option (PyStr × List PyStr)) : List PyStr :=
  body ++ trends.flatMap (fun p => p.1 :: p.2) ++ (remark.toList.flatMap fun p => p.1 :: p.2)

end Verif.Spec
