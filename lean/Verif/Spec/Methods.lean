import Verif.Model.Group
import Verif.Spec.Lists

/-
What the methods of Python's `str` and `dict` that the library uses are documented to do, said
without reference to how they work.
-/

namespace Verif.Spec

/-- `sub in s`. -/
def Occurs (sub s : PyStr) : Prop := ∃ a b, s = a ++ sub ++ b

/-- `s` is `a ++ sub ++ b`, and `sub` occurs no further to the left. -/
structure Leftmost (sub s a b : PyStr) : Prop where
  here : s = a ++ sub ++ b
  first : ∀ a' b', s = a' ++ sub ++ b' → a.length ≤ a'.length

/-- `t` is `s` with all occurrences of `old`, from the left and not overlapping, replaced. -/
inductive ReplacedAll (old new : PyStr) : PyStr → PyStr → Prop
  | none {s : PyStr} : ¬ Occurs old s → ReplacedAll old new s s
  | next {s a b t : PyStr} : Leftmost old s a b → ReplacedAll old new b t →
      ReplacedAll old new s (a ++ new ++ t)

/-- `t` is `s` without the white space at its ends. -/
def Stripped (s t : PyStr) : Prop :=
  ∃ l r, s = l ++ t ++ r ∧ (∀ c ∈ l ++ r, isSpace c = true) ∧
    (∀ c, t.head? = some c ∨ t.getLast? = some c → isSpace c = false)

/-- `t` are the ASCII digits of `n`, and no zero comes in front of others. -/
structure DecimalText (n : Nat) (t : PyStr) : Prop where
  digits : ∀ c ∈ t, 48 ≤ c ∧ c ≤ 57
  some : t ≠ []
  value : t.foldl (fun v c => 10 * v + (c - 48)) 0 = n
  lead : t.head? = Option.some 48 → t = [48]

/-- The entries of a dictionary: at most one for each key. -/
def Distinct {α : Type} (d : List (PyStr × α)) : Prop := (d.map (·.1)).Nodup

/-- `d[k]`, which is `None` when there is no entry. -/
def Entry {α : Type} (d : List (PyStr × α)) (k : PyStr) : Option α → Prop
  | some v => (k, v) ∈ d
  | none => ∀ v, (k, v) ∉ d

/-- `e` is the dictionary `d` after `d[k] = v`: the keys are in the order in which they were first put
in. -/
structure Put {α : Type} (d : List (PyStr × α)) (k : PyStr) (v : α) (e : List (PyStr × α)) : Prop where
  distinct : Distinct e
  there : (k, v) ∈ e
  others : ∀ k', k' ≠ k → ∀ w, (k', w) ∈ e ↔ (k', w) ∈ d
  order : e.map (·.1) = if k ∈ d.map (·.1) then d.map (·.1) else d.map (·.1) ++ [k]

/-- `d.update(e)`: each entry of `e` in turn. -/
inductive PutAll {α : Type} : List (PyStr × α) → List (PyStr × α) → List (PyStr × α) → Prop
  | done {d : List (PyStr × α)} : PutAll d [] d
  | next {d d' e f : List (PyStr × α)} {k : PyStr} {v : α} : Put d k v d' → PutAll d' e f →
      PutAll d ((k, v) :: e) f

end Verif.Spec
