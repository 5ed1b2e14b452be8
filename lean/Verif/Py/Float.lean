import Verif.Py.Str

/-
Python `float` (IEEE 754 binary64) as a rational number.

A finite double is its exact rational value (plus the sign of zero); each arithmetic operation is
the exact operation followed by rounding to the nearest 53-bit number, ties to even. The exponent
is not bounded: no number the library handles comes near the overflow or underflow range.
-/

namespace Verif

/-- `a / b` rounded to the nearest integer, ties to even. -/
def rhe (a b : Nat) : Nat :=
  let q := a / b
  let r := a % b
  if 2 * r < b then q
  else if b < 2 * r then q + 1
  else if q % 2 = 0 then q else q + 1

/-- The fraction `n/d` divided by `2^e`. -/
def scale2 (n d : Nat) (e : Int) : Nat × Nat :=
  if 0 ≤ e then (n, d * 2 ^ e.toNat) else (n * 2 ^ (-e).toNat, d)

/-- Exponent `e` with `2^52 ≤ (n/d)/2^e < 2^53` (for positive `n`, `d`). -/
def expo (n d : Nat) : Int :=
  let e0 : Int := (Nat.log2 n : Int) - (Nat.log2 d : Int) - 52
  let p := scale2 n d e0
  if p.1 < 2 ^ 52 * p.2 then e0 - 1 else e0

/-- `k * 2^e`. -/
def mulPow2 (k : Nat) (e : Int) : Rat :=
  if 0 ≤ e then ((k * 2 ^ e.toNat : Nat) : Rat) else mkRat k (2 ^ (-e).toNat)

/-- Nearest 53-bit number of the positive fraction `n/d`. -/
def rndPos (n d : Nat) : Rat :=
  let e := expo n d
  let p := scale2 n d e
  mulPow2 (rhe p.1 p.2) e

/-- Rounding of a rational to binary64. -/
def rnd (q : Rat) : Rat :=
  match q.num with
  | .ofNat 0 => 0
  | .ofNat (n + 1) => rndPos (n + 1) q.den
  | .negSucc n => - rndPos (n + 1) q.den

/-- A finite double. `nz` is set for `-0.0` only. -/
structure F64 where
  val : Rat
  nz : Bool := false
deriving DecidableEq, Repr

namespace F64

/-- Sign bit. -/
def sgn (x : F64) : Bool := decide (x.val < 0) || x.nz

def mk' (q : Rat) (sg : Bool) : F64 :=
  let v := rnd q
  ⟨v, v = 0 && sg⟩

/-- A decimal literal or an exactly given rational, e.g. `0.3048`. -/
def lit (q : Rat) : F64 := mk' q false

/-- `float(n)` of an `int`. -/
def ofNat (n : Nat) : F64 := mk' n false

def mul (a b : F64) : F64 := mk' (a.val * b.val) (a.sgn != b.sgn)
/-- Division by a non-zero number (callers check). -/
def div (a b : F64) : F64 := mk' (a.val / b.val) (a.sgn != b.sgn)
def add (a b : F64) : F64 := mk' (a.val + b.val) (a.sgn && b.sgn)
def sub (a b : F64) : F64 := mk' (a.val - b.val) (a.sgn && !b.sgn)

def lt (a b : F64) : Bool := decide (a.val < b.val)
def le (a b : F64) : Bool := decide (a.val ≤ b.val)
/-- `bool(x)`: non-zero. -/
def truthy (x : F64) : Bool := decide (x.val ≠ 0)

end F64

/-- `bool(x)` for `Optional[float]`. -/
def truthyO : Option F64 → Bool
  | none => false
  | some x => x.truthy

/-- The decimal number denoted by an unsigned string `ddd` or `ddd.ddd`. -/
def decOf (s : PyStr) : Option Rat :=
  match splitC 46 s with
  | [a] => if a ≠ [] ∧ a.all isDigit then some (digitsVal a : Nat) else none
  | [a, b] =>
    if a ≠ [] ∧ b ≠ [] ∧ a.all isDigit ∧ b.all isDigit then
      some (mkRat (digitsVal (a ++ b)) (10 ^ b.length))
    else none
  | _ => none

/-- `float(s)`; `none` is `ValueError`. The grammar is restricted to `[-]ddd[.ddd]`; Python also
accepts exponents, `inf`, `nan`, `+`, underscores and surrounding white space, none of which can
occur in the strings the library passes to `float` (captured groups and its own formatting). -/
def floatOf (s : PyStr) : Option F64 :=
  match s with
  | 45 :: t => (decOf t).map fun q => F64.mk' (-q) true
  | t => (decOf t).map fun q => F64.mk' q false

/-- `f"{x:.Nf}"`: exact decimal value rounded half to even to `N ≥ 1` decimals. -/
def fmtF (N : Nat) (x : F64) : PyStr :=
  let k := rhe (x.val.num.natAbs * 10 ^ N) x.val.den
  (if x.sgn then [45] else []) ++ natStr (k / 10 ^ N) ++ [46] ++ padNat N (k % 10 ^ N)

/-- `f"{x:.1f}"`. -/
def fmt1 (x : F64) : PyStr := fmtF 1 x

end Verif
