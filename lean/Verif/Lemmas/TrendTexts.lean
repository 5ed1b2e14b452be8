import Verif.Spec.Refusal
import Verif.Lemmas.TrendCut

/-
The trend section of a METAR is cut once at each of its two keywords.
-/

namespace Verif
open Spec

theorem firstCut_some {kw s a b : PyStr} (h : firstCut kw s = some (a, b)) :
    s = a ++ 32 :: b ∧ (∃ t, b = kw ++ 32 :: t) ∧
      ∀ a' t, s = a' ++ 32 :: (kw ++ 32 :: t) → a.length ≤ a'.length := by
  induction s generalizing a with
  | nil => simp [firstCut] at h
  | cons c s ih =>
    unfold firstCut at h
    split at h
    · next hc =>
      cases h
      obtain ⟨rfl, t, ht⟩ := hc
      exact ⟨rfl, ⟨t, by rw [← ht]; simp⟩, fun _ _ _ => Nat.zero_le _⟩
    · next hc =>
      cases hf : firstCut kw s with
      | none => rw [hf] at h; simp at h
      | some p =>
        rw [hf] at h
        simp only [Option.map_some, Option.some.injEq, Prod.mk.injEq] at h
        obtain ⟨rfl, rfl⟩ := h
        obtain ⟨h1, h2, h3⟩ := ih hf
        refine ⟨by rw [h1]; rfl, h2, fun a' t he => ?_⟩
        cases a' with
        | nil =>
          simp only [List.nil_append, List.cons.injEq] at he
          exact absurd ⟨he.1, t, by rw [he.2]; simp⟩ hc
        | cons c' a' =>
          simp only [List.cons_append, List.cons.injEq] at he
          have := h3 a' t he.2
          simpa using this

theorem firstCut_none {kw s : PyStr} (h : firstCut kw s = none) :
    ∀ a t, s ≠ a ++ 32 :: (kw ++ 32 :: t) := by
  induction s with
  | nil => intro a t he; simp at he
  | cons c s ih =>
    unfold firstCut at h
    split at h
    · cases h
    · next hc =>
      rw [Option.map_eq_none_iff] at h
      intro a t he
      cases a with
      | nil =>
        simp only [List.nil_append, List.cons.injEq] at he
        exact hc ⟨he.1, t, by rw [he.2]; simp⟩
      | cons c' a' =>
        simp only [List.cons_append, List.cons.injEq] at he
        exact ih h a' t he.2

/-- Marking the keyword cuts the text once. -/
theorem mark_cut {kw : PyStr} (hk : kw ≠ []) (hs : ∀ c ∈ kw, isSpace c = false) (s : PyStr) :
    (RE.ofLit (Space.both.add kw)).sub (124 :: lstrip (Space.both.add kw)) s 1 =
      match firstCut kw s with
      | none => s
      | some (a, b) => a ++ 124 :: b := by
  cases h : firstCut kw s with
  | none => exact mark_absent (firstCut_none h) _
  | some p =>
    obtain ⟨a, b⟩ := p
    obtain ⟨rfl, ⟨t, rfl⟩, h3⟩ := firstCut_some h
    exact mark_first hk hs a t fun a' b' he => h3 a' b' he

/-- A keyword is not found across a bar. -/
theorem firstCut_bar {kw : PyStr} (hk : 124 ∉ kw) (a b : PyStr) :
    firstCut kw (a ++ 124 :: b) =
      match firstCut kw a with
      | some (a1, a2) => some (a1, a2 ++ 124 :: b)
      | none => (firstCut kw b).map fun p => (a ++ 124 :: p.1, p.2) := by
  induction a with
  | nil =>
    rw [List.nil_append]
    show firstCut kw (124 :: b) = (firstCut kw b).map fun p => (124 :: p.1, p.2)
    rw [firstCut, if_neg (by simp)]
  | cons c a ih =>
    have hb : kw ++ [32] <+: a ++ 124 :: b ↔ kw ++ [32] <+: a :=
      prefix_front (by simp [hk])
    have hcons : ∀ t, firstCut kw (c :: t) = if c = 32 ∧ kw ++ [32] <+: t then some ([], t)
        else (firstCut kw t).map fun p => (c :: p.1, p.2) := fun t => rfl
    rw [List.cons_append, hcons, hcons]
    simp only [hb]
    split
    · rfl
    · rw [ih]
      cases firstCut kw a with
      | none => cases firstCut kw b <;> rfl
      | some p => rfl

theorem cutOnce_bars (kw s : PyStr) (hk : kw ≠ []) (hs : ∀ c ∈ kw, isSpace c = false) :
    splitC 124 ((RE.ofLit (Space.both.add kw)).sub (124 :: lstrip (Space.both.add kw)) s 1) =
      (cutOnce kw s).flatMap (splitC 124) := by
  rw [mark_cut hk hs]
  unfold cutOnce
  cases firstCut kw s with
  | none => simp
  | some p => simp [splitC_at]

/-- The trends of a trend section. -/
theorem trendTexts_eq (s : PyStr) :
    (splitSentence s [py!"TEMPO", py!"BECMG"] 1 .both).filter (· ≠ []) = trendTexts s := by
  have h1 : ∀ c ∈ py!"TEMPO", isSpace c = false := by decide
  have h2 : ∀ c ∈ py!"BECMG", isSpace c = false := by decide
  unfold splitSentence trendTexts
  simp only [List.foldl_cons, List.foldl_nil]
  rw [mark_cut (kw := py!"TEMPO") (by decide) h1]
  cases h : firstCut py!"TEMPO" s with
  | none => simp only; rw [cutOnce_bars _ _ (by decide) h2]
  | some p =>
    obtain ⟨a, b⟩ := p
    simp only
    rw [mark_cut (kw := py!"BECMG") (by decide) h2, firstCut_bar (by decide)]
    cases ha : firstCut py!"BECMG" a with
    | some q =>
      obtain ⟨a1, a2⟩ := q
      simp only [reduceCtorEq, if_false, cutOnce, ha]
      rw [splitC_at, splitC_at]
      simp
    | none =>
      simp only [if_true, cutOnce]
      cases hb : firstCut py!"BECMG" b with
      | none => simp [splitC_at]
      | some q =>
        simp only [Option.map_some]
        rw [List.append_assoc, List.cons_append, splitC_at, splitC_at]
        simp

end Verif
