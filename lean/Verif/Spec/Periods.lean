import Verif.Spec.Calendar
import Verif.Spec.Report
import Verif.Spec.Grammar
import Verif.Spec.Temperatures
import Verif.Model.TafGroups

/-
Periods and instants as a person reads them: trend periods, valid periods, FM changes and the times
of TAF temperatures.
-/

namespace Verif.Spec

/-! ### Days, hours and minutes as they are written -/

def AsciiDigit (c : Nat) : Prop := 48 ≤ c ∧ c ≤ 57

/-- A day of the month. -/
def IsDay (d : Nat) : Prop := 1 ≤ d ∧ d ≤ 31

/-- Two digits for an hour up to `top`, which is 23 or 24. After the first digit 2 the second has to
be an ASCII digit, otherwise any decimal digit will do. -/
def HourDigits (top : Nat) (s : PyStr) : Prop :=
  ∃ a b, s = [a, b] ∧ AsciiDigit a ∧ isDigit b = true ∧ digitsVal s ≤ top ∧ (a = 50 → AsciiDigit b)

/-- Two digits for a minute, the second any decimal digit. -/
def MinuteDigits (s : PyStr) : Prop :=
  ∃ a b, s = [a, b] ∧ AsciiDigit a ∧ isDigit b = true ∧ digitsVal s ≤ 59

/-! ### Instants -/

/-- The beginning of the day of `t`. -/
def midnight (t : DT) : DT := { t with hour := 0, minute := 0 }

/-- The day `d` of the month, if it is the day of `t` or the next one: `u` is its hour `h` (hour 24
is its end). -/
def Stated (t : DT) (d h : Nat) (u : DT) : Prop :=
  ∃ b, (b = midnight t ∨ After (midnight t) 1440 b) ∧ b.day = d ∧ After b (60 * h) u

/-- What the library takes for the day `d`, hour `h`: the day of `t` if it has that number, whatever
else the day after it. -/
def Takes (t : DT) (d h : Nat) (u : DT) : Prop :=
  ∃ b, (d = t.day → b = midnight t) ∧ (d ≠ t.day → After (midnight t) 1440 b) ∧ After b (60 * h) u

/-- `b` is the beginning of the first day that has the number `d` in its month and is not before
the day of `t`. -/
structure FirstDay (t : DT) (d : Nat) (b : DT) : Prop where
  exists_ : IsTime b
  start : b.hour = 0 ∧ b.minute = 0
  day : b.day = d
  notBefore : minutes (midnight t) ≤ minutes b
  first : ∀ b', IsTime b' → b'.hour = 0 → b'.minute = 0 → b'.day = d →
    minutes (midnight t) ≤ minutes b' → minutes b ≤ minutes b'

/-! ### Valid periods -/

/-- `DDHH/DDHH`. -/
structure ValidGroup where
  fromDay : Nat
  fromHour : PyStr
  untilDay : Nat
  untilHour : PyStr
deriving DecidableEq, Repr

def ValidGroup.WF (w : ValidGroup) : Prop :=
  IsDay w.fromDay ∧ HourDigits 23 w.fromHour ∧ IsDay w.untilDay ∧ HourDigits 24 w.untilHour

def ValidGroup.text (w : ValidGroup) : PyStr :=
  padNat 2 w.fromDay ++ w.fromHour ++ py!"/" ++ padNat 2 w.untilDay ++ w.untilHour

/-- The valid periods of a report issued at `t`. -/
def validGrammar (t : DT) : Grammar ValidGroup Valid where
  WF := ValidGroup.WF
  text := ValidGroup.text
  Says w v := Takes t w.fromDay (digitsVal w.fromHour) v.from_.time ∧
    Takes t w.untilDay (digitsVal w.untilHour) v.until_.time ∧ v.code = some w.text

/-! ### FM changes -/

/-- `FMDDHHMM`. -/
structure FmGroup where
  day : Nat
  hour : PyStr
  minute : PyStr
deriving DecidableEq, Repr

def FmGroup.WF (w : FmGroup) : Prop := IsDay w.day ∧ HourDigits 23 w.hour ∧ MinuteDigits w.minute

def FmGroup.text (w : FmGroup) : PyStr := py!"FM" ++ padNat 2 w.day ++ w.hour ++ w.minute

/-- `u` is the first instant on or after the day of `t` that the group may denote. -/
def FmGroup.At (w : FmGroup) (t u : DT) : Prop :=
  ∃ b, FirstDay t w.day b ∧ After b (60 * digitsVal w.hour + digitsVal w.minute) u

/-! ### Temperatures -/

/-- `TXtt/DDHHZ` and `TNtt/DDHHZ`. -/
structure TafTempGroup where
  max : Bool
  minus : Bool
  digits : PyStr
  day : Nat
  hour : PyStr
deriving DecidableEq, Repr

def TafTempGroup.WF (w : TafTempGroup) : Prop :=
  w.digits.length = 2 ∧ (∀ c ∈ w.digits, isDigit c = true) ∧ IsDay w.day ∧ HourDigits 23 w.hour

def TafTempGroup.text (w : TafTempGroup) : PyStr :=
  py!"T" ++ (if w.max then py!"X" else py!"N") ++ (if w.minus then py!"M" else []) ++ w.digits ++
    py!"/" ++ padNat 2 w.day ++ w.hour ++ py!"Z"

/-- The temperature of a report issued at `t`, without the code. -/
def TafTempGroup.Says (w : TafTempGroup) (t : DT) (x : TafTemperature) : Prop :=
  x.value = some (signed w.minus (digitsVal w.digits)) ∧
    Takes t w.day (digitsVal w.hour) x.time.time

/-! ### Trend periods -/

inductive PeriodKind where
  | from_ | until_ | at_
deriving DecidableEq, Repr

def PeriodKind.text : PeriodKind → PyStr
  | .from_ => py!"FM" | .until_ => py!"TL" | .at_ => py!"AT"

/-- `FMHHMM`, `TLHHMM` and `ATHHMM`. -/
structure PeriodGroup where
  kind : PeriodKind
  hour : PyStr
  minute : PyStr
deriving DecidableEq, Repr

def PeriodGroup.WF (w : PeriodGroup) : Prop := HourDigits 24 w.hour ∧ MinuteDigits w.minute

def PeriodGroup.text (w : PeriodGroup) : PyStr := w.kind.text ++ w.hour ++ w.minute

/-- `u` is an instant with the clock time of the group in the two hours from `t`. -/
structure PeriodGroup.Within (w : PeriodGroup) (t u : DT) : Prop where
  exists_ : IsTime u
  notBefore : minutes t ≤ minutes u
  notAfter : minutes u ≤ minutes t + 120
  hour : u.hour = digitsVal w.hour
  minute : u.minute = digitsVal w.minute

/-- How many hours after the hour of `t` the library places the hour of the group: in the hour of `t`
or the next one if that is the one named, and in the second next one whatever else is named. -/
def PeriodGroup.Hours (w : PeriodGroup) (t : DT) (k : Nat) : Prop :=
  (digitsVal w.hour = t.hour ∧ k = 0) ∨
  (digitsVal w.hour ≠ t.hour ∧ digitsVal w.hour = (t.hour + 1) % 24 ∧ k = 1) ∨
  (digitsVal w.hour ≠ t.hour ∧ digitsVal w.hour ≠ (t.hour + 1) % 24 ∧ k = 2)

/-- What the library takes the group for, whether its clock time is in the two hours from `t` or not. -/
def PeriodGroup.Takes (w : PeriodGroup) (t u : DT) : Prop :=
  ∃ k, w.Hours t k ∧ After { t with minute := 0 } (60 * k + digitsVal w.minute) u

/-- The last group of that kind. -/
def LastOf (k : PeriodKind) (gs : List PyStr) (w : PeriodGroup) : Prop :=
  w.WF ∧ w.kind = k ∧ ∃ pre post, gs = pre ++ w.text :: post ∧
    ∀ w' : PeriodGroup, w'.WF → w'.text ∈ post → w'.kind ≠ k

/-- No group of that kind. -/
def NoneOf (k : PeriodKind) (gs : List PyStr) : Prop :=
  ∀ w : PeriodGroup, w.WF → w.text ∈ gs → w.kind ≠ k

/-- The time `x` is what the last group of the kind says. -/
def PeriodSays (t : DT) (k : PeriodKind) (gs : List PyStr) (x : DT) : Prop :=
  ∀ w u, LastOf k gs w → w.Within t u → x = u

end Verif.Spec
