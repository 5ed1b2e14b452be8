import Verif.Py.Exc
import Verif.Py.Regex

/-
Python `datetime.datetime` at minute resolution (seconds and microseconds are 0 in every datetime
the library builds), `timedelta` addition, and `datetime.strptime(s, "%Y%m%d%H%M")`.
Line numbers refer to CPython 3.11 `Lib/datetime.py` and `Lib/_strptime.py`.
-/

namespace Verif

structure DT where
  year : Nat
  month : Nat
  day : Nat
  hour : Nat
  minute : Nat
deriving DecidableEq, Repr

/-- `_is_leap` (datetime.py 42-44). -/
def isLeap (y : Nat) : Bool := y % 4 == 0 && (y % 100 != 0 || y % 400 == 0)

/-- `_DAYS_IN_MONTH` (33) and `_days_in_month` (51-56). `0` outside 1..12. -/
def daysInMonth (y m : Nat) : Nat :=
  match m with
  | 1 => 31 | 2 => if isLeap y then 29 else 28 | 3 => 31 | 4 => 30 | 5 => 31 | 6 => 30
  | 7 => 31 | 8 => 31 | 9 => 30 | 10 => 31 | 11 => 30 | 12 => 31
  | _ => 0

/-- `_DAYS_BEFORE_MONTH` (35-40), for a common year. -/
def dbm (m : Nat) : Nat :=
  match m with
  | 1 => 0 | 2 => 31 | 3 => 59 | 4 => 90 | 5 => 120 | 6 => 151
  | 7 => 181 | 8 => 212 | 9 => 243 | 10 => 273 | 11 => 304 | 12 => 334
  | _ => 0

/-- `_days_before_year` (46-49). -/
def daysBeforeYear (year : Nat) : Nat :=
  let y := year - 1
  y * 365 + y / 4 - y / 100 + y / 400

/-- `_days_before_month` (58-61). -/
def daysBeforeMonth (y m : Nat) : Nat := dbm m + (if 2 < m ∧ isLeap y then 1 else 0)

/-- `_ymd2ord` (63-70). -/
def toOrd (y m d : Nat) : Nat := daysBeforeYear y + daysBeforeMonth y m + d

/-- `_ord2ymd` (88-146). -/
def ofOrd (ord : Nat) : Nat × Nat × Nat :=
  let n := ord - 1
  let n400 := n / 146097
  let n := n % 146097
  let n100 := n / 36524
  let n := n % 36524
  let n4 := n / 1461
  let n := n % 1461
  let n1 := n / 365
  let n := n % 365
  let year := n400 * 400 + 1 + (n100 * 100 + n4 * 4 + n1)
  if n1 = 4 ∨ n100 = 4 then (year - 1, 12, 31)
  else
    let leap : Bool := n1 == 3 && (n4 != 24 || n100 == 3)
    let month := (n + 50) / 32
    let preceding := dbm month + (if 2 < month ∧ leap then 1 else 0)
    if n < preceding then
      let month := month - 1
      let preceding := preceding -
        ((match month with
          | 1 => 31 | 2 => 28 | 3 => 31 | 4 => 30 | 5 => 31 | 6 => 30
          | 7 => 31 | 8 => 31 | 9 => 30 | 10 => 31 | 11 => 30 | 12 => 31
          | _ => 0) + (if month = 2 ∧ leap then 1 else 0))
      (year, month, n - preceding + 1)
    else (year, month, n - preceding + 1)

/-- `_MAXORDINAL` (21). -/
def maxOrdinal : Nat := 3652059

namespace DT

/-- What the `datetime` constructor accepts. -/
def valid (t : DT) : Bool :=
  1 ≤ t.year && t.year ≤ 9999 && 1 ≤ t.month && t.month ≤ 12 && 1 ≤ t.day &&
    t.day ≤ daysInMonth t.year t.month && t.hour ≤ 23 && t.minute ≤ 59

/-- Minutes since 0000-12-31 00:00. -/
def toMinutes (t : DT) : Nat := toOrd t.year t.month t.day * 1440 + t.hour * 60 + t.minute

/-- `t + timedelta(minutes=k)` (`datetime.__add__`, 2175-2194): exact, or `OverflowError`. -/
def addMinutes (t : DT) (k : Int) : Except Exc DT :=
  let total : Int := t.toMinutes + k
  let o := total / 1440
  let r := (total % 1440).toNat
  if 0 < o ∧ o ≤ maxOrdinal then
    let (y, m, d) := ofOrd o.toNat
    .ok ⟨y, m, d, r / 60, r % 60⟩
  else .error .overflow

/-- `t + timedelta(hours=k)`. -/
def addHours (t : DT) (k : Int) : Except Exc DT := t.addMinutes (60 * k)
/-- `t + timedelta(days=k)`. -/
def addDays (t : DT) (k : Int) : Except Exc DT := t.addMinutes (1440 * k)

/-- `str(t)`: `YYYY-MM-DD HH:MM:SS`. -/
def str (t : DT) : PyStr :=
  padNat 4 t.year ++ [45] ++ padNat 2 t.month ++ [45] ++ padNat 2 t.day ++ [32] ++
    padNat 2 t.hour ++ [58] ++ padNat 2 t.minute ++ py!":00"

end DT

/-- The pattern `_strptime.TimeRE` builds for `%Y%m%d%H%M` (`_strptime.py` 186-210; the
IGNORECASE flag has no effect on it). -/
def strptimeRE : RE := re! [
  r"(?P<Y>\d\d\d\d)",
  r"(?P<m>1[0-2]|0[1-9]|[1-9])",
  r"(?P<d>3[0-1]|[1-2]\d|0[1-9]|[1-9]| [1-9])",
  r"(?P<H>2[0-3]|[0-1]\d|\d)",
  r"(?P<M>[0-5]\d|\d)"]

/-- `int()` of a group of `strptimeRE` (a leading blank, possible in `d`, is ignored by `int`). -/
def strptimeInt (m : Match) (c : Cap) : Nat := digitsVal (lstrip ((m.group c).getD []))

/-- `datetime.strptime(s, "%Y%m%d%H%M")`: `ValueError` if the text does not match, if text is left
over (`_strptime.py` 348-356), or if the date does not exist. -/
def strptime (s : PyStr) : Except Exc DT :=
  match strptimeRE.match s with
  | none => .error .value
  | some m =>
    if m.stop ≠ s.length then .error .value
    else
      let t : DT := ⟨strptimeInt m .sY, strptimeInt m .sm, strptimeInt m .sd, strptimeInt m .sH,
        strptimeInt m .sM⟩
      if t.valid then .ok t else .error .value

end Verif
