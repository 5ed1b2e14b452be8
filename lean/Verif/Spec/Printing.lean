import Verif.Spec.Binary64
import Verif.Spec.Num
import Verif.Spec.Json

/-
Decimal texts of numbers: with a fixed number of decimals (`f"{x:.1f}"`) and the shortest one
(`repr(x)`, `f"{x}"`, `json.dumps(x)`).
-/

namespace Verif.Spec

def DigitText (t : PyStr) : Prop := ∀ c ∈ t, 48 ≤ c ∧ c ≤ 57

/-- The whole number nearest to `q`, the even one of two. -/
structure NearestWhole (q : Rat) (k : Nat) : Prop where
  near : Within (1 / 2) k q
  tie : distance k q = 1 / 2 → k % 2 = 0

/-- Digits without a needless zero in front, a point, and digits. -/
structure PointText (t w f : PyStr) : Prop where
  text : t = w ++ 46 :: f
  whole : w ≠ [] ∧ DigitText w
  lead : w.length = 1 ∨ w.head? ≠ some 48
  decimals : f ≠ [] ∧ DigitText f

/-- `t` is the text `[-]www.fff` of `x` with `n` decimals. -/
def FixedText (n : Nat) (x : F64) (t : PyStr) : Prop :=
  ∃ w f s, PointText s w f ∧ f.length = n ∧ (Negative x → t = 45 :: s) ∧ (¬ Negative x → t = s) ∧
    NearestWhole (distance x.val 0 * 10 ^ n) (decimalValue (w ++ f))

/-- `k * 10^p` is read as `x`; no decimal of fewer digits is; of those of as many digits that are, none is
closer to `x`, and if another is as close then `k` is even. -/
structure ShortestDecimal (x : Rat) (k : Nat) (p : Int) : Prop where
  reads : Rounded (k * 10 ^ p) x
  fewest : ∀ k' p' n, Rounded ((k' : Nat) * 10 ^ (p' : Int)) x → k' < 10 ^ n → k < 10 ^ n
  closest : ∀ k' p' n, Rounded ((k' : Nat) * 10 ^ (p' : Int)) x → k' < 10 ^ n → 10 ^ n ≤ 10 * k →
    distance (k * 10 ^ p) x ≤ distance (k' * 10 ^ p') x
  tie : ∀ k' p' n, Rounded ((k' : Nat) * 10 ^ (p' : Int)) x → k' < 10 ^ n → 10 ^ n ≤ 10 * k →
    distance (k * 10 ^ p) x = distance (k' * 10 ^ p') x → (k : Rat) * 10 ^ p ≠ k' * 10 ^ p' → k % 2 = 0

/-- One digit, possibly a point and more digits, an exponent with a sign and at least two digits. -/
structure PowerText (t : PyStr) (d : Nat) (f : PyStr) (s : Nat) (e : PyStr) : Prop where
  text : t = d :: (if f = [] then [] else 46 :: f) ++ 101 :: s :: e
  first : 49 ≤ d ∧ d ≤ 57
  decimals : DigitText f ∧ f.getLast? ≠ some 48
  sign : s = 43 ∨ s = 45
  power : DigitText e ∧ 2 ≤ e.length ∧ (e.length = 2 ∨ e.head? ≠ some 48)

/-- The text of `x`, which is not zero, as `repr` writes it: the shortest decimal, with an exponent
from 10^16 on and below 1/10000. -/
def ReprText (x : F64) (t : PyStr) : Prop :=
  ∃ k p s, ShortestDecimal (distance x.val 0) k p ∧ readDecimal s = some ((k : Rat) * 10 ^ p, []) ∧
    (Negative x → t = 45 :: s) ∧ (¬ Negative x → t = s) ∧
    (1 / 10000 ≤ (k : Rat) * 10 ^ p ∧ (k : Rat) * 10 ^ p < 10 ^ 16 →
      ∃ w f, PointText s w f ∧ (f = [48] ∨ f.getLast? ≠ some 48)) ∧
    (¬ (1 / 10000 ≤ (k : Rat) * 10 ^ p ∧ (k : Rat) * 10 ^ p < 10 ^ 16) → ∃ d f g e, PowerText s d f g e)

end Verif.Spec
