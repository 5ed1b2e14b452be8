import Verif.Py.Float

/-
`float.__repr__`, which is also `f"{x}"` and `"{}".format(x)`: the shortest decimal that is read as the
same double.
-/

namespace Verif

/-- `k * 10^p`. -/
def mulPow10 (k : Nat) (p : Int) : Rat :=
  if 0 ≤ p then ((k * 10 ^ p.toNat : Nat) : Rat) else mkRat k (10 ^ (-p).toNat)

/-- The fraction `n/d` divided by `10^p`. -/
def scale10 (n d : Nat) (p : Int) : Nat × Nat :=
  if 0 ≤ p then (n, d * 10 ^ p.toNat) else (n * 10 ^ (-p).toNat, d)

/-- The shortest decimal `k * 10^p` that is read as the positive double `n/d`, the closest one if there
are two: the exponents are tried from above. -/
def shortestGo (n d : Nat) (x : Rat) : Nat → Int → Nat × Int
  | 0, p => (0, p)
  | f + 1, p =>
    let s := scale10 n d p
    let lo := s.1 / s.2
    let okLo := decide (rnd (mulPow10 lo p) = x)
    let okHi := decide (rnd (mulPow10 (lo + 1) p) = x)
    if okLo && okHi then (rhe s.1 s.2, p)
    else if okLo then (lo, p)
    else if okHi then (lo + 1, p)
    else shortestGo n d x f (p - 1)

/-- `x` is positive. -/
def shortest (x : Rat) : Nat × Int :=
  let n := x.num.toNat
  let w := (natStr (n / x.den)).length
  shortestGo n x.den x (w + (natStr x.den).length + 20) w

/-- The digits `ds` with the decimal point after the first `pt` of them: exponents are written from
`1e16` on and below `1e-4`. -/
def pointed (ds : PyStr) (pt : Int) : PyStr :=
  if pt ≤ -4 ∨ 16 < pt then
    ds.take 1 ++ (if ds.length ≤ 1 then [] else 46 :: ds.drop 1) ++
      (if pt - 1 < 0 then [101, 45] else [101, 43]) ++ padNat 2 (pt - 1).natAbs
  else if pt ≤ 0 then [48, 46] ++ List.replicate pt.natAbs 48 ++ ds
  else if (ds.length : Int) ≤ pt then ds ++ List.replicate (pt.toNat - ds.length) 48 ++ [46, 48]
  else ds.take pt.toNat ++ [46] ++ ds.drop pt.toNat

def floatRepr (x : F64) : PyStr :=
  (if x.sgn then [45] else []) ++
    if x.val = 0 then py!"0.0"
    else
      let k := shortest (if x.val < 0 then -x.val else x.val)
      pointed (natStr k.1) ((natStr k.1).length + k.2)

end Verif
