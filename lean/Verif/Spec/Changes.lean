import Verif.Spec.Calendar
import Verif.Model.Taf

/-
Specification of the periods of the changes of a TAF, by positions in the list of changes.
-/

namespace Verif.Spec

/-- `t` begins with `p`. -/
def Begins (p t : PyStr) : Prop := ∃ rest, t = p ++ rest

/-- The code of the indicator of the change begins with `p`. -/
def IndicatorBegins (p : PyStr) (c : ChangeForecasted) : Prop :=
  ∃ t, c.indicator.code = some t ∧ Begins p t

/-- A change that does not end the period before it. -/
def Passing (c : ChangeForecasted) : Prop :=
  IndicatorBegins py!"PROB" c ∨ IndicatorBegins py!"TEMPO" c

/-- A change whose text begins with FM or BECMG. -/
def Ending (c : ChangeForecasted) : Prop := Begins py!"FM" c.code ∨ Begins py!"BECMG" c.code

/-- The change at position `k` is an FM change and only PROB and TEMPO changes follow it before
position `j`. -/
def OpenAt (l : List ChangeForecasted) (k j : Nat) : Prop :=
  (∃ x, l[k]? = some x ∧ IndicatorBegins py!"FM" x) ∧
    ∀ i y, k < i → i < j → l[i]? = some y → Passing y

/-- The change at position `j` closes the period of the change at position `k`. -/
def ClosedBy (l : List ChangeForecasted) (k j : Nat) : Prop :=
  k < j ∧ (∃ y, l[j]? = some y ∧ Ending y) ∧ OpenAt l k j

/-- The indicator with the end of its period moved to `t`. -/
def until_ (i : TafIndicator) (t : DT) : TafIndicator :=
  { i with valid := ⟨none, i.valid.from_, ⟨none, t⟩⟩,
           translation := some (py!"from " ++ i.valid.from_.str ++ py!" until " ++ t.str) }

end Verif.Spec
