import Verif.Py.Str

/-
Lemmas about the string functions.
-/

namespace Verif

theorem replaceGo_single (c : Nat) (new s : PyStr) :
    replaceGo [c] new 0 s = s.flatMap fun x => if x = c then new else [x] := by
  induction s with
  | nil => rfl
  | cons x t ih =>
    unfold replaceGo
    by_cases h : x = c
    · subst h
      simp [List.isPrefixOf, ih]
    · have : ([c].isPrefixOf (x :: t)) = false := by
        simp [List.isPrefixOf]; exact fun h' => h h'.symm
      simp [this, h, ih]

/-- Replacing one character by a text. -/
theorem replace_single (s : PyStr) (c : Nat) (new : PyStr) :
    replace s [c] new = s.flatMap fun x => if x = c then new else [x] := by
  unfold replace
  rw [if_neg (by simp)]
  exact replaceGo_single c new s

theorem replace_char_nil (s : PyStr) (c : Nat) : replace s [c] [] = s.filter (· ≠ c) := by
  rw [replace_single]
  induction s with
  | nil => rfl
  | cons x t ih =>
    by_cases h : x = c <;> simp [h, ih]

theorem replace_char_char (s : PyStr) (c d : Nat) :
    replace s [c] [d] = s.map fun x => if x = c then d else x := by
  rw [replace_single]
  induction s with
  | nil => rfl
  | cons x t ih => by_cases h : x = c <;> simp [h, ih]

theorem replace_absent (s : PyStr) (c : Nat) (new : PyStr) (h : c ∉ s) : replace s [c] new = s := by
  rw [replace_single]
  induction s with
  | nil => rfl
  | cons x t ih =>
    simp only [List.mem_cons, not_or] at h
    simp [Ne.symm h.1, ih h.2]

end Verif
