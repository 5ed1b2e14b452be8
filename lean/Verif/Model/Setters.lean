import Verif.Model.Taf

/-
The one setter of the library: `cavok` of a prevailing visibility. The attribute `prevailing_visibility` of a
report (visibility.py 219-222), trend or change is the object itself, so that an assignment to its `cavok` changes
the report.
-/

namespace Verif

/-- What a caller assigns: a `bool`, or an object of another type. -/
inductive BoolArg where
  | bool (b : Bool)
  | other
deriving DecidableEq, Repr

/-- The setter of `MetarPrevailingVisibility.cavok` (visibility.py 189-200). -/
def Visibility.setCavok (v : Visibility) : BoolArg → Except Exc Visibility
  | .bool b => .ok { v with cavok := b }
  | .other => .error .type

/-- `x.prevailing_visibility.cavok = a` for a report, trend or change `x`. -/
def Core.setCavok (c : Core) (a : BoolArg) : Except Exc Core := do
  let v ← c.prevailing.setCavok a
  return { c with prevailing := v }

def Metar.setCavok (r : Metar) (a : BoolArg) : Except Exc Metar := do
  let c ← r.core.setCavok a
  return { r with core := c }

def Taf.setCavok (r : Taf) (a : BoolArg) : Except Exc Taf := do
  let c ← r.core.setCavok a
  return { r with core := c }

/-- Several assignments, whose exceptions the caller catches. -/
def Metar.setsCavok (r : Metar) (as : List BoolArg) : Metar :=
  as.foldl (fun r a => (r.setCavok a).toOption.getD r) r

def Taf.setsCavok (r : Taf) (as : List BoolArg) : Taf :=
  as.foldl (fun r a => (r.setCavok a).toOption.getD r) r

end Verif
