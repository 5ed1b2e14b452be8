import Verif.Spec.Report
import Verif.Spec.Grammar
import Verif.Spec.Num

/-
Wind groups as a person reads them (WMO FM 15/51): direction, mean speed, gust, unit.
-/

namespace Verif.Spec

/-- The direction part: tens of degrees, `///` or `VRB`. -/
inductive WindDir where
  | tens (n : Nat) | undef | vrb
deriving DecidableEq, Repr

def WindDir.text : WindDir → PyStr
  | .tens n => padNat 3 (10 * n) | .undef => py!"///" | .vrb => py!"VRB"

/-- Tens of degrees are at most 36. -/
def WindDir.WF : WindDir → Prop
  | .tens n => n ≤ 36
  | _ => True

def WindDir.degrees : WindDir → Option Nat
  | .tens n => some (10 * n)
  | _ => none

/-- The speed part: two or three digits, `//` or `///`. -/
inductive WindSpeed where
  | digits (ds : PyStr) | undef2 | undef3
deriving DecidableEq, Repr

def WindSpeed.text : WindSpeed → PyStr
  | .digits ds => ds | .undef2 => py!"//" | .undef3 => py!"///"

/-- Two or three decimal digits. -/
def TwoOrThreeDigits (ds : PyStr) : Prop :=
  (ds.length = 2 ∨ ds.length = 3) ∧ ∀ c ∈ ds, isDigit c = true

def WindSpeed.WF : WindSpeed → Prop
  | .digits ds => TwoOrThreeDigits ds
  | _ => True

def WindSpeed.number : WindSpeed → Option Nat
  | .digits ds => some (digitsVal ds)
  | _ => none

/-- A wind group; `above` and the flag of the gust tell whether there is a `P` (more than). -/
structure WindGroup where
  dir : WindDir
  above : Bool := false
  speed : WindSpeed
  gust : Option (Bool × PyStr) := none
  mps : Bool := false
deriving DecidableEq, Repr

def flagText (b : Bool) (s : PyStr) : PyStr := if b then s else []

/-- The text of a gust. -/
def gustText : Option (Bool × PyStr) → PyStr
  | none => []
  | some (p, ds) => (py!"G" ++ flagText p py!"P") ++ ds

def WindGroup.text (w : WindGroup) : PyStr :=
  w.dir.text ++ flagText w.above py!"P" ++ w.speed.text ++ gustText w.gust ++
    (if w.mps then py!"MPS" else py!"KT")

def WindGroup.WF (w : WindGroup) : Prop :=
  w.dir.WF ∧ w.speed.WF ∧ ∀ p ds, w.gust = some (p, ds) → TwoOrThreeDigits ds

/-- A TAF admits neither a missing direction nor a missing speed. -/
def WindGroup.Forecast (w : WindGroup) : Prop :=
  w.dir ≠ .undef ∧ w.speed ≠ .undef2 ∧ w.speed ≠ .undef3

def WindGroup.gustNumber (w : WindGroup) : Option Nat := w.gust.map fun x => digitsVal x.2

/-- A stated speed in knots: the very number if stated in knots, `n / 0.51444444` up to a relative
error of 1e-14 if stated in metres per second, nothing if not stated. -/
def Knots (mps : Bool) (stated : Option Nat) (v : Option F64) : Prop :=
  match stated with
  | none => v = none
  | some n =>
    if mps then ∃ x : Rat, v = some ⟨x, false⟩ ∧ Rel (1 / 10 ^ 14) x (n / (51444444 / 100000000))
    else v = some (whole n)

/-- The values the library exposes are those the wind group states. -/
def WindSays (w : WindGroup) (x : MetarWind) : Prop :=
  x.code = some (shown w.text) ∧
  x.direction = ⟨w.dir.degrees.map whole, w.dir = .vrb⟩ ∧
  Knots w.mps w.speed.number x.speed ∧ Knots w.mps w.gustNumber x.gust

/-- Wind groups of a METAR or trend. -/
def windGrammar : Grammar WindGroup MetarWind := ⟨WindGroup.WF, WindGroup.text, WindSays⟩

/-- Wind groups of a TAF or TAF change. -/
def tafWindGrammar : Grammar WindGroup MetarWind :=
  ⟨fun w => w.WF ∧ w.Forecast, WindGroup.text, WindSays⟩

/-- A wind variation group: the extreme directions in tens of degrees. -/
structure VariationGroup where
  from_ : Nat
  to : Nat
deriving DecidableEq, Repr

def VariationGroup.WF (v : VariationGroup) : Prop :=
  1 ≤ v.from_ ∧ v.from_ ≤ 36 ∧ 1 ≤ v.to ∧ v.to ≤ 36

def VariationGroup.text (v : VariationGroup) : PyStr :=
  padNat 3 (10 * v.from_) ++ py!"V" ++ padNat 3 (10 * v.to)

def variationGrammar : Grammar VariationGroup WindVariation where
  WF := VariationGroup.WF
  text := VariationGroup.text
  Says v x := x.code = some (shown v.text) ∧
    x.from_ = ⟨some (whole (10 * v.from_)), false⟩ ∧
    x.to = ⟨some (whole (10 * v.to)), false⟩

end Verif.Spec
