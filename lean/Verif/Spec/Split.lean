import Verif.Spec.Sections

/-
Specification of the cutting of any text at any keywords, with or without a limit.
-/

namespace Verif.Spec

/-- A keyword: capital letters and digits. -/
def Keyword (kw : PyStr) : Prop := kw ≠ [] ∧ ∀ c ∈ kw, 48 ≤ c ∧ c ≤ 57 ∨ 65 ≤ c ∧ c ≤ 90

instance (kw : PyStr) : Decidable (Keyword kw) := by unfold Keyword; infer_instance

/-- The text `y` is the text `s` with some occurrences of `old` replaced by `new`, read from left
to right, `n` of them. -/
inductive Replaced (old new : PyStr) : Nat → PyStr → PyStr → Prop
  | done : Replaced old new 0 [] []
  | keep {n s y} (c : Nat) (h : Replaced old new n s y) : Replaced old new n (c :: s) (c :: y)
  | swap {n s y} (h : Replaced old new n s y) : Replaced old new (n + 1) (old ++ s) (new ++ y)

end Verif.Spec
