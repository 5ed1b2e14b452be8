import Verif.Spec.Clouds
import Verif.Spec.GroupText

/-
Flight rules from the numbers written in a report.
-/

namespace Verif.Spec

/-- The category of a ceiling of `k` hundreds of feet and a visibility of `q` metres, either of which
may not be stated. -/
def category (k : Option Nat) (q : Option Rat) : Option PyStr :=
  let low (n : Nat) : Bool := k.any fun k => decide (k < n)
  let poor (b : Rat) : Bool := q.any fun q => decide (q < b)
  if low 2 || poor 800 then some py!"VLIFR"
  else if low 5 || poor 1600 then some py!"LIFR"
  else if low 10 || poor 5000 then some py!"IFR"
  else if low 30 || poor 8000 then some py!"MVFR"
  else if low 1000 || poor 20000 then some py!"VFR"
  else none

/-- The first layer written `BKN`, `OVC` or `VV` makes the ceiling; its hundreds of feet. -/
def statedCeiling (ls : List Layer) : Option Nat :=
  (ls.find? fun l => decide (l.cover = .bkn ∨ l.cover = .ovc ∨ l.cover = .vv)).bind (·.base.hundredsOfFeet)

/-- The visibility stated at the position `i`: that of the group there, or none. -/
def VisStatedAt (c : List (PyStr × Nat)) (i : Nat) (q : Option Rat) : Prop :=
  (∃ w : VisGroup, w.WF ∧ (w.text, i) ∈ c ∧ q = w.metresStated) ∨ ((∀ g, (g, i) ∉ c) ∧ q = none)

end Verif.Spec
