import Verif.Spec.Changes
import Verif.Spec.Periods

/-
The time line of a TAF: which change is in force at an instant.
-/

namespace Verif.Spec

/-- The start of a change, in minutes. -/
def startOf (x : ChangeForecasted) : Nat := minutes x.indicator.valid.from_.time
/-- The end of a change, in minutes. -/
def stopOf (x : ChangeForecasted) : Nat := minutes x.indicator.valid.until_.time

/-- The instant `u` is in the period of the change. -/
def InForce (x : ChangeForecasted) (u : DT) : Prop :=
  startOf x ≤ minutes u ∧ minutes u ≤ stopOf x

/-- The indicator of every change says the same as the beginning of its text: it is FM or BECMG, or
PROB or TEMPO. -/
def Regular (l : List ChangeForecasted) : Prop :=
  ∀ x ∈ l, (Passing x ∧ ¬ Ending x) ∨ (¬ Passing x ∧ Ending x)

/-- No FM or BECMG change starts before an earlier one. -/
def InTimeOrder (l : List ChangeForecasted) : Prop :=
  ∀ (k j : Nat) x y, k < j → l[k]? = some x → l[j]? = some y → Ending x → Ending y →
    startOf x ≤ startOf y

/-- A change made by `FM`. -/
def IsFm (x : ChangeForecasted) : Prop := IndicatorBegins py!"FM" x

end Verif.Spec
