import Verif.Model.Setters

/-
What an assignment by hand means: the last `bool` assigned is the value, and of a dictionary just the entry at
one path is another.
-/

namespace Verif.Spec

/-- A value with `x` in the place of what is found at a path of keys; nothing is added. -/
def putAt (x : PyVal) : List PyStr → PyVal → PyVal
  | [], _ => x
  | k :: ks, .dict d => .dict (d.map fun e => if e.1 = k then (e.1, putAt x ks e.2) else e)
  | _ :: _, v => v

/-- What is found at a path of keys. -/
def getAt : List PyStr → PyVal → Option PyVal
  | [], v => some v
  | k :: ks, .dict d => (d.find? fun e => e.1 = k).bind fun e => getAt ks e.2
  | _ :: _, _ => none

/-- The last `bool` among the objects assigned. -/
def lastBool (as : List BoolArg) : Option Bool :=
  (as.filterMap fun | .bool b => some b | .other => none).getLast?

/-- The path of the CAVOK entry in the dictionary of a report. -/
def cavokPath : List PyStr := [py!"prevailing_visibility", py!"cavok"]

end Verif.Spec
