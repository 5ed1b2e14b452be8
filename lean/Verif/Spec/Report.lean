import Verif.Spec.Parse
import Verif.Model.Taf

/-
Specification of the groups of a report: the words its texts are cut into, and how they are shown.
-/

namespace Verif.Spec

/-- The words of the body of a METAR, after joining split visibility and wind shear groups. -/
def metarGroups (body : PyStr) : List PyStr :=
  splitC 32 (sanitizeWindshear (sanitizeVisibility body))

/-- The words of the body of a TAF or of a METAR trend. -/
def bodyGroups (body : PyStr) : List PyStr := splitC 32 (sanitizeVisibility body)

/-- The words of a TAF change, after joining `PROB30 TEMPO`. -/
def changeGroups (code : PyStr) : List PyStr :=
  splitC 32 (sanitizeVisibility (sanitizeChangeIndicator code))

/-- The text of a group as it is shown: underscores become blanks. -/
def shown (g : PyStr) : PyStr := g.map fun c => if c = 95 then 32 else c

/-- The code of an attribute: the text of the group taken at position `i`, or `d` if none was. -/
def CodeFrom (c : List (PyStr × Nat)) (i : Nat) (d code : Option PyStr) : Prop :=
  (∃ g, (g, i) ∈ c ∧ code = some (shown g)) ∨ ((∀ g, (g, i) ∉ c) ∧ code = d)

/-- The codes of the groups taken at the positions `lo..hi`, in order. -/
def codes (c : List (PyStr × Nat)) (lo hi : Nat) : List (Option PyStr) :=
  (taken c lo hi).map fun g => some (shown g)

end Verif.Spec
