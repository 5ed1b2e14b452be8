import Verif.Py.Str

/-
White space layout of a text.
-/

namespace Verif.Spec

/-- A word: not empty, free of white space and of the end-of-message sign. -/
def Word (w : PyStr) : Prop := w ≠ [] ∧ ∀ c ∈ w, isSpace c = false ∧ c ≠ 61

/-- White space of any kind. -/
def White (w : PyStr) : Prop := ∀ c ∈ w, isSpace c = true

/-- A separator of words: at least two white space characters, or one blank, newline or tab. -/
def Separator (w : PyStr) : Prop := White w ∧ (2 ≤ w.length ∨ w = [32] ∨ w = [10] ∨ w = [9])

/-- The text of a first word followed by separators and words. -/
def layout (first : PyStr) (rest : List (PyStr × PyStr)) : PyStr :=
  first ++ rest.flatMap fun p => p.1 ++ p.2

/-- No newline, no tab, no two adjacent white space characters. -/
def Tidy (s : PyStr) : Prop :=
  10 ∉ s ∧ 9 ∉ s ∧ ∀ pre a b post, s = pre ++ a :: b :: post → ¬ (isSpace a = true ∧ isSpace b = true)

/-- No white space at either end. -/
def Trimmed (s : PyStr) : Prop :=
  (∀ c, s.head? = some c → isSpace c = false) ∧ (∀ c, s.getLast? = some c → isSpace c = false)

end Verif.Spec
