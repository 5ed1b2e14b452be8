import Verif.Spec.Compare
import Verif.Lemmas.Quantities

/-
Comparing values that are known up to a small error.
-/

namespace Verif
open Spec Props

theorem below_of {e q q' : Rat} {v v' : Option F64} (h : Gives e (some q) v) (h' : Gives e (some q') v')
    (hg : e * (q + q') < q' - q) : Smaller v v' := by
  obtain ⟨x, rfl, -, h1, -⟩ := h
  obtain ⟨x', rfl, -, -, h2⟩ := h'
  refine ⟨x, x', rfl, rfl, ?_⟩
  grind

/-- In a unit that is `r` times smaller. -/
theorem below_scaled {e q q' r : Rat} {f : Rat → Rat} {v v' : Option F64} (h : Gives e ((some q).map f) v)
    (h' : Gives e ((some q').map f) v') (hf : ∀ q, f q = r * q) (hr : 0 < r)
    (hg : e * (q + q') < q' - q) : Smaller v v' := by
  refine below_of h h' ?_
  rw [hf, hf]
  have := Rat.mul_lt_mul_of_pos_left hg hr
  grind

/-- After a conversion by a factor. -/
theorem below_converted {e q q' : Rat} (c : F64) {v v' : Option F64} (h : Gives e (some q) v)
    (h' : Gives e (some q') v') (hc : 0 < c.val) (he : 1 / 10 ^ 15 * (1 + e) + e ≤ 2 * e)
    (hg : 2 * e * (q + q') < q' - q) : Smaller (converted v c) (converted v' c) := by
  have hcv : Converts (fun v => converted v c) c.val (1 / 10 ^ 15) := by
    refine converts_of c c.val 0 _ ⟨Rat.le_of_lt hc, Rat.le_of_lt hc, ?_, by decide +kernel⟩
    constructor <;> grind
  have k1 := gives_conv (d := 2 * e) hcv h ⟨Rat.le_of_lt hc, by decide +kernel, he⟩
  have k2 := gives_conv (d := 2 * e) hcv h' ⟨Rat.le_of_lt hc, by decide +kernel, he⟩
  exact below_scaled k1 k2 (fun _ => rfl) hc hg

/-- A multiple of `1 / D`, at most `B`. -/
def Grid (D : Nat) (B q : Rat) : Prop := (∃ N : Nat, q * D = N) ∧ q ≤ B

theorem Grid.gap {D : Nat} {B e q q' : Rat} (h : Grid D B q) (h' : Grid D B q') (hq : q < q') (hD : 0 < D)
    (he : 0 ≤ e) (hb : 2 * e * B * D < 1) : e * (q + q') < q' - q := by
  obtain ⟨⟨N, hN⟩, hB⟩ := h
  obtain ⟨⟨N', hN'⟩, hB'⟩ := h'
  have hD' : (0 : Rat) < D := by exact_mod_cast hD
  have h1 := Rat.mul_lt_mul_of_pos_right hq hD'
  rw [hN, hN'] at h1
  have h2 : N < N' := by exact_mod_cast h1
  have h3 : (N : Rat) + 1 ≤ N' := by exact_mod_cast h2
  rw [← hN, ← hN'] at h3
  have h4 := Rat.mul_le_mul_of_nonneg_left (show q + q' ≤ 2 * B by grind) he
  have h5 := Rat.mul_le_mul_of_nonneg_right h4 (Rat.le_of_lt hD')
  have h6 : e * (q + q') * D < (q' - q) * D := by grind
  exact Rat.lt_of_mul_lt_mul_right h6 (Rat.le_of_lt hD')

theorem length_below {e q q' : Rat} {m km smi ft m' km' smi' ft' : Option F64}
    (h : LengthUnits e (some q) m km smi ft) (h' : LengthUnits e (some q') m' km' smi' ft')
    (hg : e * (q + q') < q' - q) : Smaller m m' ∧ Smaller km km' ∧ Smaller smi smi' ∧ Smaller ft ft' :=
  ⟨below_of h.m h'.m hg,
   below_scaled (r := 1 / 1000) h.km h'.km (fun q => by grind) (by decide +kernel) hg,
   below_scaled (r := 1 / 1852) h.smi h'.smi (fun q => by grind) (by decide +kernel) hg,
   below_scaled (r := 1 / 0.3048) h.ft h'.ft (fun q => by grind) (by decide +kernel) hg⟩

theorem each_at {α β : Type} {R : α → β → Prop} {as : List α} {bs : List β} (h : Each R as bs) {i : Nat} {a : α}
    {b : β} (ha : as[i]? = some a) (hb : bs[i]? = some b) : R a b := by
  induction h generalizing i with
  | nil => simp at ha
  | cons h1 _ ih =>
    cases i with
    | zero =>
      simp only [List.getElem?_cons_zero, Option.some.injEq] at ha hb
      subst ha hb
      exact h1
    | succ i =>
      rw [List.getElem?_cons_succ] at ha hb
      exact ih ha hb

end Verif
