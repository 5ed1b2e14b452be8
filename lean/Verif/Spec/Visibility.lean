import Verif.Spec.Report
import Verif.Spec.Grammar
import Verif.Spec.Num

/-
Visibility groups as a person reads them.
-/

namespace Verif.Spec

/-- Visibility in metres: four digits or `////`. -/
inductive Metres where
  | digits (ds : PyStr) | undef
deriving DecidableEq, Repr

def Metres.text : Metres → PyStr
  | .digits ds => ds | .undef => py!"////"

def Metres.WF : Metres → Prop
  | .digits ds => ds.length = 4 ∧ ∀ c ∈ ds, isDigit c = true
  | .undef => True

/-- 9999 means 10 km or more. -/
def Metres.number : Metres → Option Nat
  | .digits ds => some (if ds = py!"9999" then 10000 else digitsVal ds)
  | .undef => none

/-- The suffixes the library accepts, with the compass direction in degrees; four of them are no
directions at all. -/
def visSuffixes : List (PyStr × Option Nat) :=
  [(py!"N", some 360), (py!"NE", some 45), (py!"NW", some 315),
   (py!"S", some 180), (py!"SE", some 135), (py!"SW", some 225),
   (py!"E", some 90), (py!"EE", none), (py!"EW", none),
   (py!"W", some 270), (py!"WE", none), (py!"WW", none)]

/-- Units of the second kind of visibility group. -/
inductive VisUnit where
  | sm | km | m | u
deriving DecidableEq, Repr

def VisUnit.text : VisUnit → PyStr
  | .sm => py!"SM" | .km => py!"KM" | .m => py!"M" | .u => py!"U"

/-- The prefix of the second kind: less than, more than. -/
inductive VisBound where
  | exact | below | above
deriving DecidableEq, Repr

def VisBound.text : VisBound → PyStr
  | .exact => [] | .below => py!"M" | .above => py!"P"

/-- A group in statute miles, kilometres or other units. The fraction is given by its two digits;
`joined` tells that integer and fraction were two words. -/
structure Range where
  bound : VisBound := .exact
  integer : Option PyStr
  joined : Bool := false
  fraction : Option (Nat × Nat)
  unit : VisUnit
deriving DecidableEq, Repr

def fractionText : Option (Nat × Nat) → PyStr
  | none => [] | some (a, b) => [a, 47, b]

def Range.text (r : Range) : PyStr :=
  r.bound.text ++ r.integer.getD [] ++ (if r.joined then py!"_" else []) ++
    fractionText r.fraction ++ r.unit.text

def Range.WF (r : Range) : Prop :=
  (∀ ds, r.integer = some ds → (ds.length = 1 ∨ ds.length = 2) ∧ ∀ c ∈ ds, isDigit c = true) ∧
    ∀ a b, r.fraction = some (a, b) → isDigit a = true ∧ isDigit b = true

def wholePart : Option PyStr → Rat
  | none => 0 | some ds => (digitsVal ds : Nat)

def fractionPart : Option (Nat × Nat) → Rat
  | none => 0 | some (a, b) => (digitVal a : Rat) / (digitVal b : Rat)

/-- The stated number of units. -/
def Range.amount (r : Range) : Rat := wholePart r.integer + fractionPart r.fraction

inductive VisGroup where
  | metres (v : Metres) (dir : Option PyStr)
  | range (r : Range)
  | cavok
deriving DecidableEq, Repr

def VisGroup.text : VisGroup → PyStr
  | .metres v dir => v.text ++ dir.getD []
  | .range r => r.text
  | .cavok => py!"CAVOK"

def VisGroup.WF : VisGroup → Prop
  | .metres v dir => v.WF ∧ ∀ d, dir = some d → d ∈ visSuffixes.map (·.1)
  | .range r => r.WF
  | .cavok => True

/-- The exception the library raises on a group instead of decoding it. -/
def VisGroup.raises : VisGroup → Option Exc
  | .metres _ (some d) =>
    if d = py!"EE" ∨ d = py!"EW" ∨ d = py!"WE" ∨ d = py!"WW" then some .value else none
  | .range ⟨_, _, _, some (_, b), .sm⟩ => if digitVal b = 0 then some .zeroDiv else none
  | .range ⟨_, none, _, some _, .km⟩ => some .type
  | _ => none

/-- The visibility in metres that a group states. Miles are nautical (1852 m) in the library; a
fraction of a kilometre is ignored; the units `M` and `U` give no number. -/
def VisGroup.SaysMetres : VisGroup → Option F64 → Prop
  | .metres v _, x => x = v.number.map whole
  | .range r, x =>
    match r.unit with
    | .sm => if r.integer = none ∧ r.fraction = none then x = none
        else ∃ v : Rat, x = some ⟨v, false⟩ ∧ Rel (1 / 10 ^ 15) v (r.amount * 1852)
    | .km => x = r.integer.map fun ds => whole (digitsVal ds * 1000)
    | .m | .u => x = none
  | .cavok, x => x = some (whole 10000)

/-- The direction a group states. -/
def VisGroup.degrees : VisGroup → Option Nat
  | .metres _ (some d) => (visSuffixes.lookup d).getD none
  | _ => none

def VisSays (g : VisGroup) (x : Visibility) : Prop :=
  g.SaysMetres x.vis ∧ x.direction = ⟨g.degrees.map whole, false⟩ ∧ (x.cavok = true ↔ g = .cavok)

/-- Prevailing visibility of a METAR, of a trend and of a TAF change. -/
def visGrammar : Grammar VisGroup Visibility := ⟨VisGroup.WF, VisGroup.text, VisSays⟩

/-- Prevailing visibility of a TAF: `////` is not accepted. -/
def tafVisGrammar : Grammar VisGroup Visibility :=
  ⟨fun g => g.WF ∧ ∀ d, g ≠ .metres .undef d, VisGroup.text, VisSays⟩

/-- Minimum visibility: metres only. -/
def minVisGrammar : Grammar VisGroup Visibility :=
  ⟨fun g => g.WF ∧ ∃ v d, g = .metres v d, VisGroup.text, VisSays⟩

end Verif.Spec
