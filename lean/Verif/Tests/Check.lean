import Verif.Model.Metar
import Verif.Model.Taf

/-
The vocabulary in which tools/tests2lean.py writes the assertions of the project's own tests
(/repo/tests): comparisons of Python values, `pytest.approx` and `pytest.raises`.
-/

namespace Verif.Tests

mutual
/-- `a == b` for the values found in dictionaries: a dictionary is compared without regard to the
order of its keys, floats by value. -/
def same : PyVal → PyVal → Bool
  | .none, .none => true
  | .bool a, .bool b => a == b
  | .str a, .str b => a == b
  | .float a, .float b => a.val == b.val
  | .list a, .list b => sameList a b
  | .dict a, .dict b => a.length == b.length && sameDict a b
  | _, _ => false
def sameList : List PyVal → List PyVal → Bool
  | [], [] => true
  | a :: as, b :: bs => same a b && sameList as bs
  | _, _ => false
/-- Every entry of the first dictionary is in the second, which has no key twice. -/
def sameDict : List (PyStr × PyVal) → List (PyStr × PyVal) → Bool
  | [], _ => true
  | (k, a) :: t, d =>
    (match d.lookup k with
     | some b => same a b
     | none => false) && sameDict t d
end

def num (n : Int) (d : Nat) : PyVal := .float ⟨mkRat n d, false⟩
def bools : Option Bool → PyVal
  | none => .none
  | some b => .bool b
def strs (l : List PyStr) : PyVal := .list (l.map .str)
def ostrs (l : List (Option PyStr)) : PyVal := .list (l.map .ofStr)
def nats (n : Nat) : PyVal := num n 1

/-- A value that may be an exception. -/
def ok {ε α : Type} (x : Except ε α) (f : α → Bool) : Bool :=
  match x with
  | .ok a => f a
  | .error _ => false

/-- An attribute read from a value that may be `None`. -/
def present {α : Type} : Option α → Except Exc α
  | some a => .ok a
  | none => .error .attribute

/-- `pytest.raises`. -/
def raises {α : Type} (x : Except Exc α) (e : Exc) : Bool :=
  match x with
  | .ok _ => false
  | .error e' => e' == e

def raisesParser {α : Type} (x : Except Exc α) : Bool :=
  match x with
  | .error (.parser _) => true
  | _ => false

/-- `v == pytest.approx(x, rel=r)`: `|v - x| ≤ max(r * |x|, 1e-12)`, as rationals. -/
def approx (v : PyVal) (x r : Rat) : Bool :=
  match v with
  | .float a =>
    let d := if a.val < x then x - a.val else a.val - x
    let t := r * (if x < 0 then -x else x)
    decide (d ≤ t) || decide (d ≤ mkRat 1 1000000000000)
  | _ => false

end Verif.Tests
