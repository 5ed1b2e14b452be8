import Verif.Py.DateTime

/-
The Gregorian calendar, said without the arithmetic of `datetime`: the lengths of years and months,
and the minutes that have passed since the beginning of year 1.
-/

namespace Verif.Spec

def LeapYear (y : Nat) : Prop := y % 4 = 0 ∧ (y % 100 = 0 → y % 400 = 0)

instance (y : Nat) : Decidable (LeapYear y) := by unfold LeapYear; infer_instance

/-- The lengths of the months of year `y`, January first. -/
def monthLengths (y : Nat) : List Nat :=
  [31, if LeapYear y then 29 else 28, 31, 30, 31, 30, 31, 31, 30, 31, 30, 31]

/-- A date-time that exists, in the years `datetime` knows. -/
structure IsTime (t : DT) : Prop where
  year : 1 ≤ t.year ∧ t.year ≤ 9999
  month : 1 ≤ t.month ∧ t.month ≤ 12
  day : 1 ≤ t.day ∧ ∃ n, (monthLengths t.year)[t.month - 1]? = some n ∧ t.day ≤ n
  hour : t.hour ≤ 23
  minute : t.minute ≤ 59

/-- The days of the years 1 to `n`. -/
def daysOfYears : Nat → Nat
  | 0 => 0
  | n + 1 => daysOfYears n + (monthLengths (n + 1)).sum

/-- The days of the first `n` months of year `y`. -/
def daysOfMonths (y n : Nat) : Nat := ((monthLengths y).take n).sum

/-- The minutes from the beginning of year 1 to `t`. -/
def minutes (t : DT) : Nat :=
  ((daysOfYears (t.year - 1) + daysOfMonths t.year (t.month - 1) + (t.day - 1)) * 24 + t.hour) * 60
    + t.minute

/-- `t'` is the date-time `k` minutes after `t`. -/
def After (t : DT) (k : Int) (t' : DT) : Prop :=
  IsTime t' ∧ (minutes t' : Int) = minutes t + k

end Verif.Spec
