import Verif.Model.Group

/-
Specification of section parsing, independent of the loop: an *assignment* says for every group
which handler (by position in the table) consumes it, or that none does.
-/

namespace Verif.Spec

variable {σ : Type}

/-- The handler at table position `i` accepts the group. -/
def Accepts (hs : List (Handler σ)) (i : Nat) (g : PyStr) : Prop :=
  ∃ h, hs[i]? = some h ∧ (h.regexp.match g).isSome = true

/-- One more than the last position used (positions below it are no longer available). -/
def bound : List (Option Nat) → Nat
  | [] => 0
  | asg => asg.foldl (fun b o => match o with | some i => i + 1 | none => b) 0

/-- The positions of the handlers used, in the order of the groups. -/
def used (asg : List (Option Nat)) : List Nat := asg.filterMap id

/-- The groups that no handler took, in order. -/
def leftover (gs : List PyStr) (asg : List (Option Nat)) : List PyStr :=
  (gs.zip asg).filterMap fun x => if x.2.isNone then some x.1 else none

/-- The groups that were consumed, in order, each with the position of its handler. -/
def consumed (gs : List PyStr) (asg : List (Option Nat)) : List (PyStr × Nat) :=
  (gs.zip asg).filterMap fun x => x.2.map fun i => (x.1, i)

/-- The choice for one group `g` when positions below `b` are no longer available: the first
position that accepts it, or none when there is no such position. -/
def FirstAt (hs : List (Handler σ)) (b : Nat) (g : PyStr) : Option Nat → Prop
  | some i => b ≤ i ∧ Accepts hs i g ∧ ∀ j, b ≤ j → j < i → ¬ Accepts hs j g
  | none => ∀ j, b ≤ j → ¬ Accepts hs j g

/-- First applicable handler wins, at every group. -/
def FirstApplicable (hs : List (Handler σ)) (gs : List PyStr) (asg : List (Option Nat)) : Prop :=
  ∀ k g o, gs[k]? = some g → asg[k]? = some o → FirstAt hs (bound (asg.take k)) g o

/-- `c` is the list of the groups that are decoded, each with the position of its handler. -/
def Decodes (hs : List (Handler σ)) (gs : List PyStr) (c : List (PyStr × Nat)) : Prop :=
  ∃ asg : List (Option Nat), asg.length = gs.length ∧ FirstApplicable hs gs asg ∧
    c = consumed gs asg

/-- `un` is the list of the groups that are not decoded. -/
def Leaves (hs : List (Handler σ)) (gs : List PyStr) (un : List PyStr) : Prop :=
  ∃ asg : List (Option Nat), asg.length = gs.length ∧ FirstApplicable hs gs asg ∧
    un = leftover gs asg

/-- Running the methods of the consumed groups one after the other. -/
inductive Runs (hs : List (Handler σ)) : List (PyStr × Nat) → σ → Except Exc σ → Prop
  | nil (s : σ) : Runs hs [] s (.ok s)
  | fail {g i rest s h m e} : hs[i]? = some h → h.regexp.match g = some m → h.run m s = .error e →
      Runs hs ((g, i) :: rest) s (.error e)
  | step {g i rest s h m s' out} : hs[i]? = some h → h.regexp.match g = some m →
      h.run m s = .ok s' → Runs hs rest s' out → Runs hs ((g, i) :: rest) s out

/-- Two lists of the same length whose members are related one to one, in order. -/
inductive Each {α β : Type} (R : α → β → Prop) : List α → List β → Prop
  | nil : Each R [] []
  | cons {a b as bs} : R a b → Each R as bs → Each R (a :: as) (b :: bs)

/-- An attribute read from the group taken by the handler at position `i` (with pattern `re` and
reading `f`), or the default `d` when that handler took no group. -/
def FromGroup {α : Type} (c : List (PyStr × Nat)) (i : Nat) (re : RE) (f : Match → Except Exc α)
    (d x : α) : Prop :=
  (∃ g m, (g, i) ∈ c ∧ re.match g = some m ∧ f m = .ok x) ∨ ((∀ g, (g, i) ∉ c) ∧ x = d)

/-- The groups taken by the handlers at the positions `lo..hi`, in order. -/
def taken (c : List (PyStr × Nat)) (lo hi : Nat) : List PyStr :=
  (c.filter fun x => decide (lo ≤ x.2 ∧ x.2 ≤ hi)).map (·.1)

/-- An attribute that holds the readings of all the groups taken at the positions `lo..hi`. -/
def FromGroups {α : Type} (c : List (PyStr × Nat)) (lo hi : Nat) (re : RE)
    (f : Match → Except Exc α) (xs : List α) : Prop :=
  Each (fun g x => ∃ m, re.match g = some m ∧ f m = .ok x) (taken c lo hi) xs

/-- An attribute read from the last group taken at the positions `lo..hi`. -/
def FromLast {α : Type} (c : List (PyStr × Nat)) (lo hi : Nat) (re : RE)
    (f : Match → Except Exc α) (d x : α) : Prop :=
  (∃ g m, (taken c lo hi).getLast? = some g ∧ re.match g = some m ∧ f m = .ok x) ∨
    (taken c lo hi = [] ∧ x = d)

/-- Going from one value to another in steps, one for each member of a list. -/
inductive Chain {α β : Type} (R : α → β → β → Prop) : List α → β → β → Prop
  | nil (b : β) : Chain R [] b b
  | cons {a as b b' b''} : R a b b' → Chain R as b' b'' → Chain R (a :: as) b b''

end Verif.Spec
