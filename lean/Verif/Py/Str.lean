import Lean.Elab.Term

/-
Python `str` as a list of Unicode code points, and the string methods used by the library.
-/

namespace Verif

/-- A Python string: the list of its code points. -/
abbrev PyStr := List Nat

open Lean Elab Term in
/-- `py!"text"` is the list of code points of the literal. -/
elab:max "py!" s:str : term => do
  return toExpr (s.getString.toList.map (·.toNat))

/-! ### Character classes -/

/-- Starting points of the runs of ten decimal digits (Unicode category Nd, UCD 14.0 = Python
3.11; all 62 ranges, the range at U+1D7CE being five runs). `str.isdecimal`, the regular
expression `\d` and the digits accepted by `int()`/`float()` are exactly these. -/
def digitStarts : List Nat :=
  [0x30, 0x660, 0x6f0, 0x7c0, 0x966, 0x9e6, 0xa66, 0xae6, 0xb66, 0xbe6, 0xc66, 0xce6, 0xd66,
   0xde6, 0xe50, 0xed0, 0xf20, 0x1040, 0x1090, 0x17e0, 0x1810, 0x1946, 0x19d0, 0x1a80, 0x1a90,
   0x1b50, 0x1bb0, 0x1c40, 0x1c50, 0xa620, 0xa8d0, 0xa900, 0xa9d0, 0xa9f0, 0xaa50, 0xabf0,
   0xff10, 0x104a0, 0x10d30, 0x11066, 0x110f0, 0x11136, 0x111d0, 0x112f0, 0x11450, 0x114d0,
   0x11650, 0x116c0, 0x11730, 0x118e0, 0x11950, 0x11c50, 0x11d50, 0x11da0, 0x16a60, 0x16ac0,
   0x16b50, 0x1d7ce, 0x1d7d8, 0x1d7e2, 0x1d7ec, 0x1d7f6, 0x1e140, 0x1e2f0, 0x1e950, 0x1fbf0]

/-- The ranges of `\d`. -/
def digitRanges : List (Nat × Nat) := digitStarts.map fun a => (a, a + 9)

/-- The ranges of `\s` (for `str` patterns), which is also what `str.strip()` removes. -/
def spaceRanges : List (Nat × Nat) :=
  [(0x9, 0xd), (0x1c, 0x20), (0x85, 0x85), (0xa0, 0xa0), (0x1680, 0x1680), (0x2000, 0x200a),
   (0x2028, 0x2029), (0x202f, 0x202f), (0x205f, 0x205f), (0x3000, 0x3000)]

/-- Membership in a list of closed ranges. -/
def inRanges (rs : List (Nat × Nat)) (c : Nat) : Bool :=
  rs.any fun r => Nat.ble r.1 c && Nat.ble c r.2

def isDigit (c : Nat) : Bool := inRanges digitRanges c
def isSpace (c : Nat) : Bool := inRanges spaceRanges c

/-- Numeric value of a decimal digit (any script); `0` for non-digits, where it is not used. -/
def digitVal (c : Nat) : Nat :=
  match digitStarts.find? (fun a => Nat.ble a c && Nat.ble c (a + 9)) with
  | some a => c - a
  | none => 0

/-! ### String methods -/

/-- `s.startswith(p)`. -/
def startsWith (s p : PyStr) : Bool := p.isPrefixOf s

/-- `s.lstrip()`. -/
def lstrip (s : PyStr) : PyStr := s.dropWhile isSpace
/-- `s.rstrip()`. -/
def rstrip (s : PyStr) : PyStr := (s.reverse.dropWhile isSpace).reverse
/-- `s.strip()`. -/
def strip (s : PyStr) : PyStr := rstrip (lstrip s)

/-- `s.split(sep)` for a one-character separator; never empty. -/
def splitC (sep : Nat) : PyStr → List PyStr
  | [] => [[]]
  | c :: t =>
    if c = sep then [] :: splitC sep t
    else match splitC sep t with
      | [] => [[c]]      -- unreachable: `splitC` is never empty
      | w :: ws => (c :: w) :: ws

/-- `sep.join(ws)`. -/
def join (sep : PyStr) : List PyStr → PyStr
  | [] => []
  | [w] => w
  | w :: ws => w ++ sep ++ join sep ws

/-- Worker of `replace`: the first argument counts the characters still to be skipped. -/
def replaceGo (old new : PyStr) : Nat → PyStr → PyStr
  | _, [] => []
  | k + 1, _ :: t => replaceGo old new k t
  | 0, c :: t =>
    if old.isPrefixOf (c :: t) then new ++ replaceGo old new (old.length - 1) t
    else c :: replaceGo old new 0 t

/-- `s.replace(old, new)`. With `old == ""` Python inserts `new` around every character. -/
def replace (s old new : PyStr) : PyStr :=
  if old = [] then new ++ s.flatMap (fun c => c :: new) else replaceGo old new 0 s

/-- `old in s` for strings. -/
def contains (s sub : PyStr) : Bool :=
  match s with
  | [] => sub.isPrefixOf []
  | c :: t => sub.isPrefixOf (c :: t) || contains t sub

/-- `s.upper()` on the ASCII letters (only applied to the literals "METAR" and "TAF"). -/
def upper (s : PyStr) : PyStr := s.map fun c => if 97 ≤ c ∧ c ≤ 122 then c - 32 else c
/-- `s.lower()` on the ASCII letters (only applied to the entries of a table of descriptions). -/
def lower (s : PyStr) : PyStr := s.map fun c => if 65 ≤ c ∧ c ≤ 90 then c + 32 else c

/-! ### Integers -/

/-- Value of a sequence of digits. -/
def digitsVal (s : PyStr) : Nat := s.foldl (fun n c => 10 * n + digitVal c) 0

/-- `int(s)` restricted to unsigned digit strings; anything else is a `ValueError` (`none`).
Python also accepts signs, underscores and surrounding white space, none of which can occur in
the captured groups the library passes to `int`. -/
def intOf (s : PyStr) : Option Nat :=
  if s ≠ [] ∧ s.all isDigit then some (digitsVal s) else none

/-- Decimal digits of `n`, at most `fuel + 1` of them (enough when `fuel ≥ n`). -/
def natStrGo : Nat → Nat → PyStr
  | 0, n => [48 + n % 10]
  | f + 1, n => if n < 10 then [48 + n] else natStrGo f (n / 10) ++ [48 + n % 10]

/-- `str(n)`, `"{}".format(n)` for a non-negative `int`. -/
def natStr (n : Nat) : PyStr := natStrGo n n

/-- `str(z)` for an `int`. -/
def intStr (z : Int) : PyStr :=
  match z with
  | .ofNat n => natStr n
  | .negSucc n => 45 :: natStr (n + 1)

/-- `"{:0Nd}".format(n)` for `n ≥ 0`. -/
def padNat (width n : Nat) : PyStr :=
  let s := natStr n
  List.replicate (width - s.length) 48 ++ s

/-- `"{:0Nd}".format(z)`; the sign counts in the width. -/
def padInt (width : Nat) (z : Int) : PyStr :=
  match z with
  | .ofNat n => padNat width n
  | .negSucc n =>
    let s := natStr (n + 1)
    45 :: (List.replicate (width - 1 - s.length) 48 ++ s)

/-- Dictionary lookup `d.get(key, None)` in a literal dictionary. -/
def dget (d : List (PyStr × PyStr)) (k : PyStr) : Option PyStr := d.lookup k

/-- `d.get(x, None)` where `x` may be `None` (`None` is a key of none of the dictionaries). -/
def dgetO (d : List (PyStr × PyStr)) : Option PyStr → Option PyStr
  | none => none
  | some k => dget d k

/-- `"{}".format(x)` for an optional string: `None` prints as `None`. -/
def fmtO : Option PyStr → PyStr
  | none => py!"None"
  | some s => s

end Verif
