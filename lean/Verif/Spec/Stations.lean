import Verif.Model.Base
import Verif.Spec.RoundTrip

/-
What a row of the table of stations should look like.
-/

namespace Verif.Spec

/-- Degrees of the given width, a dot, two digits of minutes below 60 and one of two letters, as in
`61.10N` and `150.01W`; at most `max` degrees. -/
def Coordinate (width max : Nat) (letters : PyStr) (s : PyStr) : Prop :=
  ∃ d m, ∃ c ∈ letters, s = padNat width d ++ 46 :: padNat 2 m ++ [c] ∧ m < 60 ∧ 60 * d + m ≤ 60 * max

def Latitude : PyStr → Prop := Coordinate 2 90 py!"NS"

def Longitude : PyStr → Prop := Coordinate 3 180 py!"EW"

/-- Whole metres between the Dead Sea and the highest airport. -/
def Elevation (s : PyStr) : Prop := ∃ z : Int, s = intStr z ∧ -430 ≤ z ∧ z ≤ 4500

/-- What stands for a code that a station does not have. -/
def noCode : PyStr := py!"None"

/-- A code of three capital letters or digits. -/
def IataCode (s : PyStr) : Prop := s.length = 3 ∧ ∀ c ∈ s, (65 ≤ c ∧ c ≤ 90) ∨ (48 ≤ c ∧ c ≤ 57)

/-- A code of five digits. -/
def SynopCode (s : PyStr) : Prop := ∃ n, s = padNat 5 n ∧ n < 100000

end Verif.Spec
