import Verif.Lemmas.Printing
import Verif.Props.Binary64

/-
C90: the decimal texts of numbers.
-/

namespace Verif.Props
open Verif Verif.Spec

/-- C90. `f"{x:.Nf}"` has exactly `N` decimals, no needless zero in front, a minus sign for a negative
number (and for minus zero), and is the nearest such decimal; of two it is the one with an even last
digit. -/
theorem C90_fixed (n : Nat) (hn : 0 < n) (x : F64) : FixedText n x (fmtF n x) := fmtF_fixed n hn x

/-- The nearest decimal is unique: the text is determined by `FixedText`. -/
theorem C90_nearest (q : Rat) (j k : Nat) (hj : NearestWhole q j) (hk : NearestWhole q k) : j = k := by
  apply Classical.byContradiction
  intro hne
  have h1 := (hj.best k)
  have h2 := (hk.best j)
  have e : Spec.distance j q = Spec.distance k q := by
    have := h1.1
    have := h2.1
    grind
  have e1 := h1.2 e (fun h => hne h.symm)
  have e2 := h2.2 e.symm hne
  have n1 := hj.near
  have n2 := hk.near
  obtain ⟨a1, a2⟩ := n1
  obtain ⟨b1, b2⟩ := n2
  have far : j + 2 ≤ k ∨ k + 2 ≤ j := by omega
  have c2 : ((2 : Nat) : Rat) = 2 := rfl
  rcases far with h | h
  · have := Rat.natCast_le_natCast.2 h
    rw [Rat.natCast_add] at this
    grind
  · have := Rat.natCast_le_natCast.2 h
    rw [Rat.natCast_add] at this
    grind

/-- A quarter is a tie and goes to the even tenth; 0.35 is slightly less than 35/100 as a double. -/
example : fmt1 ⟨1 / 4, false⟩ = py!"0.2" ∧ fmt1 ⟨3 / 4, false⟩ = py!"0.8" ∧ fmt1 (F64.lit 0.35) = py!"0.3" ∧
    fmt1 ⟨0, true⟩ = py!"-0.0" ∧ fmt1 ⟨-1 / 100, false⟩ = py!"-0.0" ∧ fmtF 10 (F64.lit 0.1) = py!"0.1000000000" := by
  decide +kernel

/-- C90. `repr(x)` of a double that is not zero and neither tiny nor huge: the shortest decimal that is
read as `x`, the closest of those of that length, with an exponent exactly from 10^16 on and below
1/10000. -/
theorem C90_repr (x : F64) (hd : Double x) (hm : Moderate x) (h0 : x.val ≠ 0) : ReprText x (floatRepr x) := by
  obtain ⟨-, h1, h2⟩ := moderate_normal hm h0
  exact floatRepr_text hd h0 h1 h2

/-- C90. The two zeros. -/
theorem C90_zero : floatRepr ⟨0, false⟩ = py!"0.0" ∧ floatRepr ⟨0, true⟩ = py!"-0.0" := by decide +kernel

/-- C90. What is shown is never longer than needed: 17 digits always suffice. -/
theorem C90_digits (x : F64) (hd : Double x) (hm : Moderate x) (h0 : x.val ≠ 0) :
    ∀ k p, ShortestDecimal (Spec.distance x.val 0) k p → k < 10 ^ 17 := by
  obtain ⟨h, h1, h2⟩ := moderate_normal hm h0
  exact fun k p hs => ShortestDecimal.short h (distance_double_rnd hd.1) h1 h2 hs

/-- C90. Every number of a METAR, in every unit, that is not zero is written by `repr` in that way. -/
theorem C90_metar (db : Database) (clock : Clock) (code : PyStr) (a : Args) (r : Metar)
    (h : Metar.new db clock code a = .ok r) (x : F64) (hx : some x ∈ metarNumbers r) (h0 : x.val ≠ 0) :
    ReprText x (floatRepr x) :=
  have := C89_metar db clock code a r h x hx
  C90_repr x this.double this.moderate h0

/-- C90. Every number of a TAF. -/
theorem C90_taf (db : Database) (clock : Clock) (code : PyStr) (a : Args) (r : Taf)
    (h : Taf.new db clock code a = .ok r) (x : F64) (hx : some x ∈ tafNumbers r) (h0 : x.val ≠ 0) :
    ReprText x (floatRepr x) :=
  have := C89_taf db clock code a r h x hx
  C90_repr x this.double this.moderate h0

example : Double (F64.lit 0.1) ∧ Moderate (F64.lit 0.1) ∧ (F64.lit 0.1).val ≠ 0 ∧
    floatRepr (F64.lit 0.1) = py!"0.1" ∧ floatRepr (F64.add (F64.lit 0.1) (F64.lit 0.2)) = py!"0.30000000000000004" ∧
    floatRepr (F64.lit 12345678901234567) = py!"1.2345678901234568e+16" ∧
    floatRepr (F64.lit (1 / 100000)) = py!"1e-05" ∧ floatRepr ⟨-40, false⟩ = py!"-40.0" := by
  unfold Double Moderate
  decide +kernel

end Verif.Props
