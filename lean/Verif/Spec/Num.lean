/-
Closeness of numbers.
-/

namespace Verif.Spec

/-- The difference of two numbers is at most `e`. -/
def Within (e x y : Rat) : Prop := x - y ≤ e ∧ y - x ≤ e

instance (e x y : Rat) : Decidable (Within e x y) := inferInstanceAs (Decidable (_ ∧ _))

/-- `x` differs from `y ≥ 0` by at most the fraction `e` of `y`. -/
def Rel (e x y : Rat) : Prop := 0 ≤ y ∧ Within (e * y) x y

instance (e x y : Rat) : Decidable (Rel e x y) := inferInstanceAs (Decidable (_ ∧ _))

end Verif.Spec
