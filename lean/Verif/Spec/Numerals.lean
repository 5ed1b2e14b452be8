import Verif.Py.Float

/-
What Python's `int(text)` and `float(text)` accept, as in the documentation of the two: white space
around, a sign, digits of any script with single underscores between them, and for `float` a
point, an exponent, `inf`, `infinity` and `nan` in any case.
-/

namespace Verif.Spec

/-- Digits with underscores between them: text, value, number of digits. -/
inductive DigitPart : PyStr → Nat → Nat → Prop
  | one {c : Nat} : isDigit c = true → DigitPart [c] (digitVal c) 1
  | more {t : PyStr} {v n c : Nat} : DigitPart t v n → isDigit c = true →
      DigitPart (t ++ [c]) (10 * v + digitVal c) (n + 1)
  | under {t : PyStr} {v n c : Nat} : DigitPart t v n → isDigit c = true →
      DigitPart (t ++ [95, c]) (10 * v + digitVal c) (n + 1)

/-- `5`, `5.`, `5.25`, `.25`. -/
inductive Mantissa : PyStr → Rat → Prop
  | whole {t : PyStr} {v n : Nat} : DigitPart t v n → Mantissa t v
  | point {t : PyStr} {v n : Nat} : DigitPart t v n → Mantissa (t ++ [46]) v
  | both {t u : PyStr} {v n w k : Nat} : DigitPart t v n → DigitPart u w k →
      Mantissa (t ++ 46 :: u) (v + (w : Rat) / 10 ^ k)
  | frac {u : PyStr} {w k : Nat} : DigitPart u w k → Mantissa (46 :: u) ((w : Rat) / 10 ^ k)

/-- An optional sign. -/
inductive SignText : PyStr → Bool → Prop
  | none : SignText [] false
  | plus : SignText [43] false
  | minus : SignText [45] true

/-- What a text stands for. -/
inductive FloatValue where
  | finite (negative : Bool) (size : Rat)
  | infinite (negative : Bool)
  | nan

/-- A number without the white space. -/
inductive FloatBody : PyStr → FloatValue → Prop
  | plain {s t : PyStr} {b : Bool} {q : Rat} : SignText s b → Mantissa t q →
      FloatBody (s ++ t) (.finite b q)
  | power {s t e u : PyStr} {b b' : Bool} {q : Rat} {c v n : Nat} : SignText s b → Mantissa t q →
      c = 101 ∨ c = 69 → SignText e b' → DigitPart u v n →
      FloatBody (s ++ t ++ c :: (e ++ u)) (.finite b (q * 10 ^ (if b' then -(v : Int) else v)))
  | infinite {s t : PyStr} {b : Bool} : SignText s b →
      lower t = py!"inf" ∨ lower t = py!"infinity" → FloatBody (s ++ t) (.infinite b)
  | nan {s t : PyStr} {b : Bool} : SignText s b → lower t = py!"nan" → FloatBody (s ++ t) .nan

/-- `float(text)`. -/
def FloatText (t : PyStr) (v : FloatValue) : Prop :=
  ∃ l b r, t = l ++ b ++ r ∧ (∀ c ∈ l, isSpace c = true) ∧ (∀ c ∈ r, isSpace c = true) ∧
    FloatBody b v

/-- `int(text)`. -/
def IntText (t : PyStr) (z : Int) : Prop :=
  ∃ l s b r neg v n, t = l ++ s ++ b ++ r ∧ (∀ c ∈ l, isSpace c = true) ∧
    (∀ c ∈ r, isSpace c = true) ∧ SignText s neg ∧ DigitPart b v n ∧
    z = if neg then -(v : Int) else v

/-- The texts that the library passes to `float`: digits and some other characters without a
meaning for `float`, or a decimal with digits on both sides of the point. -/
def PlainFloat (t : PyStr) : Prop :=
  (∀ c ∈ t, isDigit c = true ∨ c ∈ py!"-/VRBXM") ∨
    ∃ s w f, (s = [] ∨ s = [45]) ∧ t = s ++ w ++ 46 :: f ∧ w ≠ [] ∧ f ≠ [] ∧
      (∀ c ∈ w, isDigit c = true) ∧ ∀ c ∈ f, isDigit c = true

/-- The texts that it passes to `int`: digits and slashes. -/
def PlainInt (t : PyStr) : Prop := ∀ c ∈ t, isDigit c = true ∨ c = 47

end Verif.Spec
