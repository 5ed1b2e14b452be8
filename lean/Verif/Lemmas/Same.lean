import Verif.Spec.Same
import Verif.Lemmas.Compare

/-
From comparing values to telling them apart.
-/

namespace Verif
open Spec Props

theorem gives_missing {e : Rat} {q : Option Rat} {v : Option F64} (h : Gives e q v) : v = none ↔ q = none := by
  cases q with
  | none => simp only [Gives] at h; simp [h]
  | some q => obtain ⟨y, rfl, -⟩ := h; simp

theorem gives_map_none {e : Rat} {q : Option Rat} {f : Rat → Rat} {v : Option F64} (h : Gives e (q.map f) v) :
    v = none ↔ q = none := by
  rw [gives_missing h]; simp

theorem near_missing {e : Rat} {q : Option Rat} {v : Option F64} (h : Near e q v) : v = none ↔ q = none := by
  cases q with
  | none => simp only [Near] at h; simp [h]
  | some q => obtain ⟨y, rfl, -⟩ := h; simp

theorem near_map_none {e : Rat} {q : Option Rat} {f : Rat → Rat} {v : Option F64} (h : Near e (q.map f) v) :
    v = none ↔ q = none := by
  rw [near_missing h]; simp

theorem Spec.Smaller.not_same {v v' : Option F64} (h : Smaller v v') : ¬ SameNumber v v' := by
  obtain ⟨x, x', rfl, rfl, hlt⟩ := h
  intro e
  simp only [SameNumber, Option.map_some, Option.some.injEq] at e
  rw [e] at hlt
  exact Rat.lt_irrefl hlt

theorem Spec.SameNumber.symm {v v' : Option F64} (h : SameNumber v v') : SameNumber v' v := Eq.symm h

theorem Spec.SameNumber.missing {v v' : Option F64} (h : SameNumber v v') : v = none ↔ v' = none := by
  unfold SameNumber at h
  cases v <;> cases v' <;> simp_all

/-- Values that compare as the stated quantities do, and are missing with them, tell them apart. -/
theorem tells_of {α : Type} {units : List (α → Option F64)} {q q' : Option Rat} {x x' : α}
    (h : ComparesIn units q q' x x') (h' : ComparesIn units q' q x' x)
    (hn : ∀ u ∈ units, (u x = none ↔ q = none) ∧ (u x' = none ↔ q' = none)) : TellsIn units q q' x x' := by
  intro u hu hs
  have n := (hn u hu).1.symm.trans (hs.missing.trans (hn u hu).2)
  match q, q' with
  | none, none => rfl
  | none, some _ => simp at n
  | some _, none => simp at n
  | some a, some b =>
    refine congrArg some (Classical.byContradiction fun hne => ?_)
    rcases (show a < b ∨ b < a by grind) with hlt | hlt
    · exact (h ⟨a, b, rfl, rfl, hlt⟩ u hu).not_same hs
    · exact (h' ⟨b, a, rfl, rfl, hlt⟩ u hu).not_same hs.symm

theorem length_none {α : Type} {m km smi ft : α → Option F64} {e : Rat} {q : Option Rat} {x : α}
    (h : LengthUnits e q (m x) (km x) (smi x) (ft x)) : ∀ u ∈ [m, km, smi, ft], (u x = none ↔ q = none) := by
  intro u hu
  simp only [List.mem_cons, List.not_mem_nil, or_false] at hu
  rcases hu with rfl | rfl | rfl | rfl
  · exact gives_missing h.m
  · exact gives_map_none h.km
  · exact gives_map_none h.smi
  · exact gives_map_none h.ft

theorem temp_none {α : Type} {c k f r : α → Option F64} {q : Option Rat} {x : α}
    (h : TempUnits q (c x) (k x) (f x) (r x)) : ∀ u ∈ [c, k, f, r], (u x = none ↔ q = none) := by
  intro u hu
  simp only [List.mem_cons, List.not_mem_nil, or_false] at hu
  rcases hu with rfl | rfl | rfl | rfl
  · exact near_missing h.c
  · exact near_map_none h.k
  · exact near_map_none h.f
  · exact near_map_none h.r

theorem speed_none {α : Type} {k m h l : α → Option F64} {b : Bool} {n : Option Nat} {x : α}
    (hs : SpeedUnits b n (k x) (m x) (h x) (l x)) :
    ∀ u ∈ [k, m, h, l], (u x = none ↔ statedMps b n = none) := by
  intro u hu
  simp only [List.mem_cons, List.not_mem_nil, or_false] at hu
  rcases hu with rfl | rfl | rfl | rfl
  · exact gives_map_none hs.inKnot
  · exact gives_missing hs.inMs
  · exact gives_map_none hs.inKph
  · exact gives_map_none hs.inMiph

/-- Directions in degrees, radians and gradians. -/
theorem angle_tells {α : Type} {d r g : α → Option F64} {p p' : Option PyStr} {n n' : Option Nat} {x x' : α}
    (h : AngleUnits n (d x) (r x) (g x) p) (h' : AngleUnits n' (d x') (r x') (g x') p')
    (hn : ∀ k, n = some k → k ≤ 360) (hn' : ∀ k, n' = some k → k ≤ 360) :
    TellsIn [d, r, g] (statedDegrees n) (statedDegrees n') x x' := by
  have cast : ∀ {n k : Nat}, n ≤ k → (n : Rat) ≤ (k : Rat) := fun h => by exact_mod_cast h
  have below : ∀ {n n' : Option Nat} {x x' : α} {p p' : Option PyStr},
      AngleUnits n (d x) (r x) (g x) p → AngleUnits n' (d x') (r x') (g x') p' →
      (∀ k, n = some k → k ≤ 360) → (∀ k, n' = some k → k ≤ 360) →
      ComparesIn [d, r, g] (statedDegrees n) (statedDegrees n') x x' := by
    intro n n' x x' p p' h h' hn hn' hq u hu
    obtain ⟨q, q', e, e', hlt⟩ := hq
    match n, n', e, e' with
    | some k, some k', e, e' =>
      simp only [statedDegrees, Option.map_some, Option.some.injEq] at e e'
      subst e e'
      have g1 : Grid 1 360 (k : Rat) := ⟨⟨k, by simp⟩, cast (hn k rfl)⟩
      have g2 : Grid 1 360 (k' : Rat) := ⟨⟨k', by simp⟩, cast (hn' k' rfl)⟩
      have gap := g1.gap (e := 1 / 10 ^ 8) g2 hlt (by decide) (by decide +kernel) (by decide +kernel)
      have gap' := g1.gap (e := 1 / 10 ^ 15) g2 hlt (by decide) (by decide +kernel) (by decide +kernel)
      simp only [List.mem_cons, List.not_mem_nil, or_false] at hu
      rcases hu with rfl | rfl | rfl
      · exact ⟨whole k, whole k', h.degrees, h'.degrees, hlt⟩
      · have a := h.radians
        have b := h'.radians
        simp only [Option.map_some] at a b
        refine below_scaled (q := k) (q' := k') (r := 3.141592653589793238 / 180)
          (f := fun q => 3.141592653589793238 / 180 * q) ?_ ?_ (fun _ => rfl) (by decide +kernel) gap'
        · rw [show 3.141592653589793238 * (k : Rat) / 180 = 3.141592653589793238 / 180 * k by grind] at a
          exact a
        · rw [show 3.141592653589793238 * (k' : Rat) / 180 = 3.141592653589793238 / 180 * k' by grind] at b
          exact b
      · have a := h.gradians
        have b := h'.gradians
        simp only [Option.map_some] at a b
        refine below_scaled (q := k) (q' := k') (r := 400 / 360)
          (f := fun q => 400 / 360 * q) ?_ ?_ (fun _ => rfl) (by decide +kernel) gap
        · rw [show 400 * (k : Rat) / 360 = 400 / 360 * k by grind] at a
          exact a
        · rw [show 400 * (k' : Rat) / 360 = 400 / 360 * k' by grind] at b
          exact b
  have miss : ∀ {n : Option Nat} {x : α} {p : Option PyStr}, AngleUnits n (d x) (r x) (g x) p →
      ∀ u ∈ [d, r, g], (u x = none ↔ statedDegrees n = none) := by
    intro n x p h u hu
    simp only [List.mem_cons, List.not_mem_nil, or_false] at hu
    rcases hu with rfl | rfl | rfl
    · rw [h.degrees]; simp [statedDegrees]
    · rw [gives_missing h.radians]; simp [statedDegrees]
    · rw [gives_missing h.gradians]; simp [statedDegrees]
  exact tells_of (below h h' hn hn') (below h' h hn' hn) fun u hu => ⟨miss h u hu, miss h' u hu⟩

theorem statedDegrees_inj {n n' : Option Nat} (h : statedDegrees n = statedDegrees n') : n = n' := by
  match n, n', h with
  | none, none, _ => rfl
  | some a, some b, h =>
    simp only [statedDegrees, Option.map_some, Option.some.injEq] at h
    exact congrArg some (by exact_mod_cast h)

theorem statedMps_inj {b : Bool} {n n' : Option Nat} (h : statedMps b n = statedMps b n') : n = n' := by
  match n, n', h with
  | none, none, _ => rfl
  | some a, some c, h =>
    simp only [statedMps, Option.map_some, Option.some.injEq] at h
    refine congrArg some ?_
    have : (a : Rat) = c := by
      cases b
      · simp only [Bool.false_eq_true, if_false] at h
        grind
      · simpa using h
    exact_mod_cast this

end Verif
