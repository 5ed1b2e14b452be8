import Verif.Spec.RecordText

/-
Specification of the text of the list of changes of a TAF (C81).
-/

namespace Verif.Spec

/-- What the list of changes shows of a change whose period is from `f` until `e`. -/
def TafChange.Listed (f e : DT) (c : TafChange) (s : PyStr) : Prop :=
  match c.kind, c.valid with
  | .fm _, _ => s = periodText f e
  | k, some _ => s = k.means ++ py!" " ++ periodText f e
  | k, none => s = k.means

end Verif.Spec
