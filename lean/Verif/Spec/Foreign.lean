import Verif.Spec.Engine

/-
Specification for C98: characters that occur in no group.
-/

namespace Verif.Spec

/-- The characters of groups: capital letters, decimal digits of any script, `+`, `-`, `/` and `_`. -/
def telegraphic (c : Nat) : Bool := (decide (65 ≤ c) && decide (c ≤ 90)) || isDigit c || [43, 45, 47, 95].contains c

/-- The other characters but the line feed, which is never in a word of a report. -/
def Foreign (c : Nat) : Prop := telegraphic c = false ∧ c ≠ 10

/-- All characters that a pattern asks for are telegraphic. -/
def inside : RE → Bool
  | .chr cc | .rep cc _ _ => match cc with
    | .digit => true
    | .space => false
    | .set rs => rs.all fun r => (decide (65 ≤ r.1) && decide (r.2 ≤ 90)) ||
        (decide (48 ≤ r.1) && decide (r.2 ≤ 57)) || (decide (r.1 = r.2) && [43, 45, 47, 95].contains r.1)
  | .seq a b | .alt a b => inside a && inside b
  | .opt a | .grp _ a => inside a
  | .eps | .bos | .eos => true

/-- The pattern without the ways that go through `$`. -/
def unended : RE → RE
  | .eos => .chr (.set [])
  | .seq a b => .seq (unended a) (unended b)
  | .alt a b => .alt (unended a) (unended b)
  | .opt a => .opt (unended a)
  | .grp n a => .grp n (unended a)
  | r => r

/-- Every way of the pattern ends at `$`. -/
def Ended (r : RE) : Prop := ∀ s p, NoWay s (unended r) p

end Verif.Spec
