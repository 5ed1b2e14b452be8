import Verif.Spec.GroupText

/-
Specification of the text of a list of groups and of access by index (C81).
-/

namespace Verif.Spec
open Verif

/-- `s` is the texts `ts` in order with `sep` between neighbours. -/
inductive Joined (sep : PyStr) : List PyStr → PyStr → Prop
  | none : Joined sep [] []
  | one (t : PyStr) : Joined sep [t] t
  | more {ts : List PyStr} {s : PyStr} (t u : PyStr) : Joined sep (u :: ts) s →
      Joined sep (t :: u :: ts) (t ++ sep ++ s)

/-- `x` is at the index `i` of `l`: counted from the front from 0, or from the back from -1. -/
def AtIndex {α : Type} (l : List α) (i : Int) (x : α) : Prop :=
  (∃ k : Nat, i = k ∧ l[k]? = some x) ∨ ∃ k : Nat, i = -(k + 1) ∧ l.reverse[k]? = some x

/-- `s` lists, separated by " | ", the texts of groups of the form `G` whose texts in the report are
`gs`, each as `Shows` tells. -/
def ListShown {γ α : Type} (G : Grammar γ α) (Shows : γ → PyStr → Prop) (gs : List PyStr) (s : PyStr) :
    Prop :=
  ∃ ws ts, gs = ws.map G.text ∧ (∀ w ∈ ws, G.WF w) ∧ Each Shows ws ts ∧ Joined py!" | " ts s

end Verif.Spec
