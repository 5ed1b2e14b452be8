import Verif.Spec.Report
import Verif.Spec.Grammar
import Verif.Spec.Num

/-
Temperature and pressure groups as a person reads them.
-/

namespace Verif.Spec

/-- The float that is `n`, or `-n` (`-0.0` for `M00`). -/
def signed (neg : Bool) (n : Nat) : F64 := ⟨if neg then -(n : Rat) else n, neg && n == 0⟩

/-- The mark of a negative temperature. -/
inductive Minus where
  | letter | dash
deriving DecidableEq, Repr

def Minus.text : Minus → PyStr
  | .letter => py!"M" | .dash => py!"-"

/-- The number of a temperature: two digits or one of the marks for a missing value. -/
inductive TempNumber where
  | digits (ds : PyStr) | slashes | letterX | letterM
deriving DecidableEq, Repr

def TempNumber.text : TempNumber → PyStr
  | .digits ds => ds | .slashes => py!"//" | .letterX => py!"XX" | .letterM => py!"MM"

def TempNumber.WF : TempNumber → Prop
  | .digits ds => ds.length = 2 ∧ ∀ c ∈ ds, isDigit c = true
  | _ => True

def TempNumber.value : TempNumber → Option Nat
  | .digits ds => some (digitsVal ds)
  | _ => none

/-- A temperature: an optional minus and the number. -/
structure TempPart where
  minus : Option Minus := none
  number : TempNumber
deriving DecidableEq, Repr

def minusText : Option Minus → PyStr
  | none => []
  | some m => m.text

def TempPart.text (t : TempPart) : PyStr := minusText t.minus ++ t.number.text

/-- Degrees Celsius. -/
def TempPart.degrees (t : TempPart) : Option F64 := t.number.value.map (signed t.minus.isSome)

/-- A temperature group. -/
structure TempGroup where
  air : TempPart
  dew : TempPart
deriving DecidableEq, Repr

def TempGroup.text (g : TempGroup) : PyStr := g.air.text ++ py!"/" ++ g.dew.text

def TempGroup.WF (g : TempGroup) : Prop := g.air.number.WF ∧ g.dew.number.WF

def tempGrammar : Grammar TempGroup Temperatures where
  WF := TempGroup.WF
  text := TempGroup.text
  Says g x := x.code = some (shown g.text) ∧ x.temperature = g.air.degrees ∧
    x.dewpoint = g.dew.degrees

/-- The letters before a pressure. -/
inductive PressLetters where
  | A | Q | QNH
deriving DecidableEq, Repr

def PressLetters.text : PressLetters → PyStr
  | .A => py!"A" | .Q => py!"Q" | .QNH => py!"QNH"

def lettersText : Option PressLetters → PyStr
  | none => []
  | some l => l.text

/-- A pressure group: letters, four digits or slashes (`none`), and `INS` or not. -/
structure PressGroup where
  letters : Option PressLetters := none
  number : Option PyStr
  ins : Bool := false
deriving DecidableEq, Repr

def pressNumberText : Option PyStr → PyStr
  | none => py!"////"
  | some ds => ds

def PressGroup.text (g : PressGroup) : PyStr :=
  lettersText g.letters ++ pressNumberText g.number ++ (if g.ins then py!"INS" else [])

def PressGroup.WF (g : PressGroup) : Prop :=
  ∀ ds, g.number = some ds → ds.length = 4 ∧ ∀ c ∈ ds, isDigit c = true

/-- Hundredths of inches of mercury: `A` or `INS`. -/
def PressGroup.Inches (g : PressGroup) : Prop := g.letters = some .A ∨ g.ins = true

/-- Hectopascals: `Q` or `QNH` (and no `INS`). -/
def PressGroup.Hecto (g : PressGroup) : Prop :=
  (g.letters = some .Q ∨ g.letters = some .QNH) ∧ g.ins = false

/-- No unit at all. -/
def PressGroup.Bare (g : PressGroup) : Prop := g.letters = none ∧ g.ins = false

/-- Hectopascals of the group: exactly the number in hPa; the hundredths of inches divided by 0.02953
within 1e-9 hPa; a bare number is hPa up to 2500, and above is divided by 0.02953 as if it were
(whole) inches. -/
structure PressSays (g : PressGroup) (x : MetarPressure) : Prop where
  code : x.code = some (shown g.text)
  missing : g.number = none → x.value = none
  inches : ∀ ds, g.number = some ds → g.Inches →
    ∃ v : Rat, x.value = some ⟨v, false⟩ ∧ Within (1 / 10 ^ 9) v (digitsVal ds / 100 / (2953 / 100000))
  zero : ∀ ds, g.number = some ds → digitsVal ds = 0 → x.value = some (whole 0)
  hecto : ∀ ds, g.number = some ds → g.Hecto → x.value = some (whole (digitsVal ds))
  bareLow : ∀ ds, g.number = some ds → g.Bare → digitsVal ds ≤ 2500 →
    x.value = some (whole (digitsVal ds))
  bareHigh : ∀ ds, g.number = some ds → g.Bare → 2500 < digitsVal ds →
    ∃ v : Rat, x.value = some ⟨v, false⟩ ∧ Within (1 / 10 ^ 9) v (digitsVal ds / (2953 / 100000))

def pressGrammar : Grammar PressGroup MetarPressure := ⟨PressGroup.WF, PressGroup.text, PressSays⟩

end Verif.Spec
