import Verif.Model.Base

/-
How the rows of the tables are written: as the Python literals, `rows! [["NAME", ...], ...]`. Each
string becomes the list of its code points, as with `py!`. Equal parts are shared to keep the compiled
tables small.
-/

namespace Verif
open Lean Elab Term Meta

/-- Code points of a string as an expression; `cache` holds the expressions made so far. -/
def textExpr (s : String) : StateM (Std.HashMap (List Nat) Expr × Std.HashMap Nat Expr) Expr := do
  let rec go : List Nat → StateM (Std.HashMap (List Nat) Expr × Std.HashMap Nat Expr) Expr
    | [] => do
      match (← get).1[([] : List Nat)]? with
      | some e => return e
      | none =>
        let e := mkApp (.const ``List.nil [0]) (.const ``Nat [])
        modify fun (a, b) => (a.insert [] e, b)
        return e
    | c :: cs => do
      match (← get).1[c :: cs]? with
      | some e => return e
      | none =>
        let t ← go cs
        let h ← match (← get).2[c]? with
          | some h => pure h
          | none => do
            let h := mkApp2 (.const ``List.cons [0]) (.const ``Nat []) (toExpr c)
            modify fun (a, b) => (a, b.insert c h)
            pure h
        let e := mkApp h t
        modify fun (a, b) => (a.insert (c :: cs) e, b)
        return e
  go (s.toList.map (·.toNat))

syntax rowText := "[" str,* "]"

/-- `rows! [[...], ...]`: rows of eight strings. -/
elab "rows!" "[" rows:rowText,* "]" : term => do
  let ty := Expr.const ``StationRow []
  let nil := mkApp (.const ``List.nil [0]) ty
  let cons := mkApp (.const ``List.cons [0]) ty
  let mut cache := (∅, ∅)
  let mut out := #[]
  for r in rows.getElems do
    match r with
    | `(rowText| [$xs,*]) =>
      let xs := xs.getElems
      unless xs.size = 8 do throwErrorAt r "a row has eight columns"
      let mut e := Expr.const ``StationRow.mk []
      for x in xs do
        let (v, c) := (textExpr x.getString).run cache
        cache := c
        e := mkApp e v
      out := out.push e
    | _ => throwUnsupportedSyntax
  return out.foldr (fun e l => mkApp2 cons e l) nil

/-- `pairs! [[...], ...]`: pairs of strings. -/
elab "pairs!" "[" rows:rowText,* "]" : term => do
  let str := mkApp (.const ``List [0]) (.const ``Nat [])
  let ty := mkApp2 (.const ``Prod [0, 0]) str str
  let nil := mkApp (.const ``List.nil [0]) ty
  let cons := mkApp (.const ``List.cons [0]) ty
  let mut cache := (∅, ∅)
  let mut out := #[]
  for r in rows.getElems do
    match r with
    | `(rowText| [$a, $b]) =>
      let (v, c) := (textExpr a.getString).run cache
      let (w, c) := (textExpr b.getString).run c
      cache := c
      out := out.push (mkApp4 (.const ``Prod.mk [0, 0]) str str v w)
    | _ => throwUnsupportedSyntax
  return out.foldr (fun e l => mkApp2 cons e l) nil

/-- Case: the rows are the lists of code points that `py!` gives. -/
example : rows! [["AK ADAK NAS", "PADK", "ADK", "70454", "51.53N", "176.39W", "4", "US"]] =
    [⟨py!"AK ADAK NAS", py!"PADK", py!"ADK", py!"70454", py!"51.53N", py!"176.39W", py!"4", py!"US"⟩] := rfl

end Verif
