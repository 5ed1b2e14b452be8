import Verif.Spec.Json

/-
Parts of a value.
-/

namespace Verif.Spec

/-- `w` is the value `v`, or lies somewhere inside it. -/
inductive Inside (w : PyVal) : PyVal → Prop
  | here : Inside w w
  | dict {k : PyStr} {v : PyVal} {d : List (PyStr × PyVal)} (hk : (k, v) ∈ d) (h : Inside w v) : Inside w (.dict d)
  | list {v : PyVal} {l : List PyVal} (hv : v ∈ l) (h : Inside w v) : Inside w (.list l)

/-- The value of an entry of a dictionary. -/
def entry : PyVal → PyStr → Option PyVal
  | .dict d, k => (d.find? fun kv => kv.1 = k).map (·.2)
  | _, _ => none

end Verif.Spec
