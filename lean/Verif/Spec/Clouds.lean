import Verif.Py.Float

/-
Cloud groups as a person reads them (WMO FM 15/51): cover, height in hundreds of feet, type.
-/

namespace Verif.Spec

/-- The cover part of a cloud group. `zvc` is the misspelling `0VC` the library also accepts. -/
inductive Cover where
  | skc | clr | nsc | ncd | few | sct | bkn | ovc | zvc | undef | vv
deriving DecidableEq, Repr

def Cover.all : List Cover := [.skc, .clr, .nsc, .ncd, .few, .sct, .bkn, .ovc, .zvc, .undef, .vv]

def Cover.text : Cover → PyStr
  | .skc => py!"SKC" | .clr => py!"CLR" | .nsc => py!"NSC" | .ncd => py!"NCD"
  | .few => py!"FEW" | .sct => py!"SCT" | .bkn => py!"BKN" | .ovc => py!"OVC" | .zvc => py!"0VC"
  | .undef => py!"///" | .vv => py!"VV"

/-- The words `cloud.cover` reports; the misspelt `0VC` has none. -/
def Cover.words : Cover → Option PyStr
  | .skc | .clr | .nsc | .ncd => some py!"clear"
  | .few => some py!"a few" | .sct => some py!"scattered" | .bkn => some py!"broken"
  | .ovc => some py!"overcast" | .zvc => none
  | .undef => some py!"undefined" | .vv => some py!"indefinite ceiling"

/-- The eighths `cloud.oktas` reports. -/
def Cover.eighths : Cover → PyStr
  | .few => py!"1-2" | .sct => py!"3-4" | .bkn => py!"5-7" | .ovc => py!"8"
  | .nsc | .ncd => py!"not specified"
  | .skc | .clr | .zvc | .undef | .vv => py!"undefined"

/-- The type part. -/
inductive Kind where
  | absent | undef | cb | tcu
deriving DecidableEq, Repr

def Kind.all : List Kind := [.absent, .undef, .cb, .tcu]

def Kind.text : Kind → PyStr
  | .absent => [] | .undef => py!"///" | .cb => py!"CB" | .tcu => py!"TCU"

def Kind.words : Kind → Option PyStr
  | .absent | .undef => none
  | .cb => some py!"cumulonimbus" | .tcu => some py!"towering cumulus"

/-- The height part: missing, `///`, or three digits. -/
inductive Base where
  | absent | undef | hundreds (digits : PyStr)
deriving DecidableEq, Repr

def Base.text : Base → PyStr
  | .absent => [] | .undef => py!"///" | .hundreds ds => ds

/-- Three decimal digits. -/
def Base.WF : Base → Prop
  | .hundreds ds => ds.length = 3 ∧ ∀ c ∈ ds, isDigit c = true
  | _ => True

/-- The stated height in hundreds of feet. -/
def Base.hundredsOfFeet : Base → Option Nat
  | .hundreds ds => some (digitsVal ds)
  | _ => none

structure Layer where
  cover : Cover
  base : Base
  kind : Kind
deriving DecidableEq, Repr

def Layer.text (l : Layer) : PyStr := l.cover.text ++ (l.base.text ++ l.kind.text)

def Layer.WF (l : Layer) : Prop := l.base.WF

end Verif.Spec
