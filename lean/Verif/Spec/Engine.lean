import Verif.Py.Regex

/-
What it means for a pattern of Python's `re` to match, said without an engine.

A pattern fits a text from a position in certain *ways*. A way is a choice at every place where
the pattern leaves one: which alternative of `a|b`, whether `a?` is used, how many characters a
repetition takes. Every choice is a number, a greater number being preferred: 1 for the left
alternative, 1 for using the optional part, the number of characters for a repetition. Of two ways
the engine prefers the one with the greater number at the first place where they differ.
-/

namespace Verif.Spec

/-- `Way s r p w q cs`: from position `p` of `s` the pattern `r` fits with the choices `w`, up to
position `q`, and captures `cs` (latest first). -/
inductive Way (s : PyStr) : RE → Nat → List Nat → Nat → Caps → Prop
  | eps (p : Nat) : Way s .eps p [] p []
  | chr {cc : CC} {p c : Nat} : s[p]? = some c → cc.mem c = true → Way s (.chr cc) p [] (p + 1) []
  | seq {a b : RE} {p q t : Nat} {w v : List Nat} {cs ds : Caps} :
      Way s a p w q cs → Way s b q v t ds → Way s (.seq a b) p (w ++ v) t (ds ++ cs)
  | left {a b : RE} {p q : Nat} {w : List Nat} {cs : Caps} :
      Way s a p w q cs → Way s (.alt a b) p (1 :: w) q cs
  | right {a b : RE} {p q : Nat} {w : List Nat} {cs : Caps} :
      Way s b p w q cs → Way s (.alt a b) p (0 :: w) q cs
  | use {a : RE} {p q : Nat} {w : List Nat} {cs : Caps} :
      Way s a p w q cs → Way s (.opt a) p (1 :: w) q cs
  | skip {a : RE} (p : Nat) : Way s (.opt a) p [0] p []
  | rep {cc : CC} {lo : Nat} {hi : Option Nat} {p k : Nat} :
      lo ≤ k → (∀ h, hi = some h → k ≤ h) →
      (∀ i < k, ∃ c, s[p + i]? = some c ∧ cc.mem c = true) →
      Way s (.rep cc lo hi) p [k] (p + k) []
  | grp {n : Cap} {a : RE} {p q : Nat} {w : List Nat} {cs : Caps} :
      Way s a p w q cs → Way s (.grp n a) p w q ((n, p, q) :: cs)
  | bos : Way s .bos 0 [] 0 []
  | eos {p : Nat} : p = s.length ∨ (p + 1 = s.length ∧ s[p]? = some 10) → Way s .eos p [] p []

/-- The choices `w` are preferred to `v`. -/
def Preferred (w v : List Nat) : Prop :=
  ∃ u x y w' v', w = u ++ x :: w' ∧ v = u ++ y :: v' ∧ y < x

/-- The way `w` is the one that the engine takes: every other one comes later. -/
def FirstWay (s : PyStr) (r : RE) (p : Nat) (q : Nat) (cs : Caps) : Prop :=
  ∃ w, Way s r p w q cs ∧ ∀ v t ds, Way s r p v t ds → v = w ∨ Preferred w v

/-- The pattern fits in no way from `p`. -/
def NoWay (s : PyStr) (r : RE) (p : Nat) : Prop := ∀ w q cs, ¬ Way s r p w q cs

/-- The text of a named group among captures: from start to end of the latest one. -/
def Captured (s : PyStr) (cs : Caps) (n : Cap) (x : PyStr) : Prop :=
  ∃ l a b l', cs = l ++ (n, a, b) :: l' ∧ (∀ c ∈ l, c.1 ≠ n) ∧ x = (s.drop a).take (b - a)

/-- The pattern has no `^`. -/
def NoCaret : RE → Prop
  | .bos => False
  | .seq a b | .alt a b => NoCaret a ∧ NoCaret b
  | .opt a | .grp _ a => NoCaret a
  | _ => True

/-- The pattern takes at least one character wherever it fits. -/
def NonEmpty (r : RE) : Prop := ∀ s p w cs, ¬ Way s r p w p cs

/-- `Substituted s r repl n p out`: `out` is the text of `s` from position `p` with the successive
leftmost matches, at most `n` of them if a limit is given, replaced by `repl`. -/
inductive Substituted (s : PyStr) (r : RE) (repl : PyStr) : Option Nat → Nat → PyStr → Prop
  | stop (p : Nat) : Substituted s r repl (some 0) p (s.drop p)
  | rest {n : Option Nat} {p : Nat} : (∀ k, p ≤ k → k ≤ s.length → NoWay s r k) →
      Substituted s r repl n p (s.drop p)
  | next {n : Option Nat} {p k q : Nat} {cs : Caps} {out : PyStr} :
      n ≠ some 0 → p ≤ k → (∀ j, p ≤ j → j < k → NoWay s r j) → FirstWay s r k q cs →
      Substituted s r repl (n.map (· - 1)) q out →
      Substituted s r repl n p ((s.drop p).take (k - p) ++ repl ++ out)

end Verif.Spec
