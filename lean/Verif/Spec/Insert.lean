import Verif.Spec.Sanitize

/-
Specification of one more word in a text.
-/

namespace Verif.Spec

/-- A list with one more element somewhere. -/
def Inserted {α : Type} (w : α) (l l' : List α) : Prop := ∃ a b, l = a ++ b ∧ l' = a ++ w :: b

/-- A word that is not joined with its neighbours: it neither ends with WS nor begins with a fraction
of miles. -/
def Loose (w : PyStr) : Prop := ¬ py!"WS" <:+ w ∧ ∀ v, isPair v w = false

end Verif.Spec
