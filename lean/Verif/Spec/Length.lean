import Verif.Spec.Engine
import Verif.Model.Regexps

/-
Specification for C101: how long the words are that a pattern accepts, and how much is tried to find out.
-/

namespace Verif.Spec

/-- The patterns that end with `$`, and the lengths of the words they accept. -/
def groupLengths : List (RE × List Nat) :=
  [(MetarRegExp.TYPE, [3, 5]),
   (MetarRegExp.STATION, [4]),
   (MetarRegExp.TIME, [7]),
   (MetarRegExp.MODIFIER, [3, 4]),
   (MetarRegExp.WIND, [7, 8, 9, 10, 11, 12, 13, 14, 15]),
   (MetarRegExp.WIND_VARIATION, [7]),
   (MetarRegExp.VISIBILITY, [1, 2, 3, 4, 5, 6, 7, 8, 9]),
   (MetarRegExp.MINIMUM_VISIBILITY, [4, 5, 6]),
   (MetarRegExp.RUNWAY_RANGE, [6, 7, 8, 9, 10, 11, 12, 13, 14, 15, 16, 17, 18, 19]),
   (MetarRegExp.WEATHER, [0, 1, 2, 3, 4, 5, 6, 7, 8]),
   (MetarRegExp.CLOUD, [2, 3, 4, 5, 6, 7, 8, 9]),
   (MetarRegExp.TEMPERATURES, [5, 6, 7]),
   (MetarRegExp.PRESSURE, [4, 5, 7, 8, 10]),
   (MetarRegExp.RECENT_WEATHER, [2, 4, 6, 8, 10]),
   (MetarRegExp.WINDSHEAR, [6, 7, 10, 11]),
   (MetarRegExp.SEA_STATE, [6, 7, 8, 9]),
   (MetarRegExp.RUNWAY_STATE, [8, 10, 11]),
   (MetarRegExp.TREND_TIME_PERIOD, [6]),
   (TafRegExp.AMD_COR, [3]),
   (TafRegExp.NIL, [3]),
   (TafRegExp.VALID, [9]),
   (TafRegExp.CANCELLED, [3]),
   (TafRegExp.WIND, [7, 8, 9, 10, 11, 12, 13, 14, 15])]

/-- The patterns with an alternative that does not end with `$`, and the least length of their words. -/
def leastLengths : List (RE × Nat) :=
  [(TafRegExp.VISIBILITY, 1), (TafRegExp.TEMPERATURE, 10), (MetarRegExp.CHANGE_INDICATOR, 5),
   (TafRegExp.CHANGE_INDICATOR, 5)]

/-- Characters of the class from `p` on, at most `n`, counted. -/
def runFrom (s : PyStr) (cc : CC) : Nat → Nat → Nat
  | 0, _ => 0
  | n + 1, p => if (s[p]?.any cc.mem) = true then runFrom s cc n (p + 1) + 1 else 0

/-- A search for all the ways in which a pattern fits from `p`: where they end, and how many times a
character or a position was tested. An engine that stops at the first way tests less. -/
def explore (s : PyStr) : RE → Nat → List Nat × Nat
  | .eps, p => ([p], 0)
  | .chr cc, p => (if (s[p]?.any cc.mem) = true then [p + 1] else [], 1)
  | .seq a b, p =>
    let x := explore s a p
    let ys := x.1.map (explore s b)
    (ys.flatMap (·.1), x.2 + (ys.map (·.2)).sum)
  | .alt a b, p => ((explore s a p).1 ++ (explore s b p).1, (explore s a p).2 + (explore s b p).2)
  | .opt a, p => ((explore s a p).1 ++ [p], (explore s a p).2)
  | .rep cc lo hi, p =>
    let n := runFrom s cc (hi.getD s.length) p
    (((List.range (n + 1)).reverse.filter fun k => decide (lo ≤ k)).map (p + ·), n + 1)
  | .grp _ a, p => explore s a p
  | .bos, p => (if p = 0 then [p] else [], 1)
  | .eos, p => (if p = s.length ∨ (p + 1 = s.length ∧ s[p]? = some 10) then [p] else [], 1)

end Verif.Spec
