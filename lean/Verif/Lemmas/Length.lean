import Verif.Lemmas.Foreign
import Verif.Spec.Length
import Verif.Spec.Ambiguity

/-
Helper lemmas for C101.
-/

namespace Verif
open Spec

/-! ### Lengths -/

/-- The repetitions of the pattern are bounded. -/
def RE.bounded : RE → Bool
  | .rep _ _ hi => hi.isSome
  | .seq a b | .alt a b => a.bounded && b.bounded
  | .opt a | .grp _ a => a.bounded
  | _ => true

/-- How many characters the pattern can take. -/
def RE.lens : RE → List Nat
  | .eps | .bos | .eos => [0]
  | .chr _ => [1]
  | .seq a b => (a.lens.flatMap fun x => b.lens.map (x + ·)).eraseDups
  | .alt a b => (a.lens ++ b.lens).eraseDups
  | .opt a => (0 :: a.lens).eraseDups
  | .rep _ lo hi => List.range' lo (hi.getD 0 + 1 - lo)
  | .grp _ a => a.lens

theorem way_lens {s : PyStr} {r : RE} {p q : Nat} {w : List Nat} {cs : Caps} (h : Way s r p w q cs) :
    r.bounded = true → q - p ∈ r.lens := by
  induction h with
  | eps => simp [RE.lens]
  | chr => simp [RE.lens]
  | @seq _ _ p q t _ _ _ _ h1 h2 ih1 ih2 =>
    intro hb
    simp only [RE.bounded, Bool.and_eq_true] at hb
    have := way_le h1
    have := way_le h2
    simp only [RE.lens, List.mem_eraseDups, List.mem_flatMap, List.mem_map]
    exact ⟨_, ih1 hb.1, _, ih2 hb.2, by omega⟩
  | left _ ih =>
    intro hb
    simp only [RE.bounded, Bool.and_eq_true] at hb
    simp only [RE.lens, List.mem_eraseDups, List.mem_append]
    exact .inl (ih hb.1)
  | right _ ih =>
    intro hb
    simp only [RE.bounded, Bool.and_eq_true] at hb
    simp only [RE.lens, List.mem_eraseDups, List.mem_append]
    exact .inr (ih hb.2)
  | use _ ih =>
    intro hb
    simp only [RE.lens, List.mem_eraseDups, List.mem_cons]
    exact .inr (ih hb)
  | skip => simp [RE.lens]
  | @rep cc lo hi p k h1 h2 _ =>
    intro hb
    obtain ⟨x, rfl⟩ := Option.isSome_iff_exists.1 hb
    have := h2 x rfl
    simp only [RE.lens, List.mem_range'_1, Option.getD_some]
    omega
  | grp _ ih => exact fun hb => ih hb
  | bos => simp [RE.lens]
  | eos => simp [RE.lens]

/-- A way that goes through `$` ends at the end. -/
theorem way_end {s : PyStr} (hn : 10 ∉ s) {r : RE} {p q : Nat} {w : List Nat} {cs : Caps} (h : Way s r p w q cs) :
    p ≤ s.length → deadEnd r = true → q = s.length := by
  induction h with
  | @seq _ _ p q t _ _ _ _ h1 h2 ih1 ih2 =>
    intro hp hd
    simp only [deadEnd, Bool.or_eq_true] at hd
    have hq := way_length h1 hp
    rcases hd with hd | hd
    · have := ih1 hp hd
      have := way_le h2
      have := way_length h2 hq
      omega
    · exact ih2 hq hd
  | left _ ih =>
    intro hp hd
    simp only [deadEnd, Bool.and_eq_true] at hd
    exact ih hp hd.1
  | right _ ih =>
    intro hp hd
    simp only [deadEnd, Bool.and_eq_true] at hd
    exact ih hp hd.2
  | grp _ ih => exact fun hp hd => ih hp hd
  | eos h =>
    intro _ _
    rcases h with h | ⟨_, h⟩
    · exact h
    · exact absurd (List.mem_of_getElem? h) hn
  | _ => intro _ hd; cases hd

theorem admits_way {r : RE} {s : PyStr} (h : Admits r s) : ∃ w q cs, Way s r 0 w q cs := by
  obtain ⟨m, hm⟩ := h
  obtain ⟨-, w, hw, -⟩ := match_iff.1 hm
  exact ⟨w, _, _, hw⟩

theorem closed_length {r : RE} {s : PyStr} (hb : r.bounded = true) (hd : deadEnd r = true) (hn : 10 ∉ s)
    (h : Admits r s) : s.length ∈ r.lens := by
  obtain ⟨w, q, cs, hw⟩ := admits_way h
  have e := way_end hn hw (Nat.zero_le _) hd
  have := way_lens hw hb
  rw [e, Nat.sub_zero] at this
  exact this

/-! ### Tests -/

theorem runFrom_eq (s : PyStr) (cc : CC) (n p : Nat) : runFrom s cc n p = runLen s cc n p := by
  induction n generalizing p with
  | zero => rfl
  | succ n ih =>
    rw [runFrom, runLen]
    cases s[p]? with
    | none => rfl
    | some c =>
      simp only [Option.any_some]
      split <;> simp [ih]

theorem runFrom_le (s : PyStr) (cc : CC) (n p : Nat) : runFrom s cc n p ≤ n := by
  induction n generalizing p with
  | zero => exact Nat.le_refl _
  | succ n ih =>
    rw [runFrom]
    have := ih (p + 1)
    split <;> omega

theorem downFrom_ends (p : Nat) (cs : Caps) (lo n : Nat) :
    (downFrom p cs lo n).map (·.1) =
      ((List.range (n + 1)).reverse.filter fun k => decide (lo ≤ k)).map (p + ·) := by
  induction n with
  | zero => rw [downFrom]; split <;> simp_all
  | succ n ih =>
    rw [downFrom, List.range_succ, List.reverse_append]
    simp only [List.reverse_cons, List.reverse_nil, List.nil_append, List.cons_append, List.filter_cons]
    by_cases h : lo ≤ n + 1
    · simp [h, ih]
    · have : ((List.range (n + 1)).reverse.filter fun k => decide (lo ≤ k)) = [] := by
        rw [List.filter_eq_nil_iff]
        intro k hk
        simp only [List.mem_reverse, List.mem_range] at hk
        simp
        omega
      simp [h, this]

theorem downFrom_length (p : Nat) (cs : Caps) (lo n : Nat) : (downFrom p cs lo n).length ≤ n + 1 - lo := by
  induction n with
  | zero => rw [downFrom]; split <;> simp_all
  | succ n ih =>
    rw [downFrom]
    split
    · simp only [List.length_cons]; omega
    · simp

/-- The search finds the ways of the engine, in the same order. -/
theorem explore_ends (s : PyStr) (r : RE) (p : Nat) (cs : Caps) :
    (explore s r p).1 = (RE.m s r (p, cs)).map (·.1) := by
  induction r generalizing p cs with
  | eps => rfl
  | chr cc =>
    simp only [explore, RE.m]
    cases s[p]? with
    | none => rfl
    | some c => simp only [Option.any_some]; split <;> rfl
  | seq a b iha ihb =>
    simp only [explore, RE.m, iha p cs, List.map_map, List.flatMap_map, List.map_flatMap]
    congr 1
    funext x
    exact ihb x.1 x.2
  | alt a b iha ihb => simp only [explore, RE.m, iha p cs, ihb p cs, List.map_append]
  | opt a ih => simp only [explore, RE.m, ih p cs, List.map_append, List.map_cons, List.map_nil]
  | rep cc lo hi => simp only [explore, RE.m, runFrom_eq, downFrom_ends]
  | grp n a ih => simp only [explore, RE.m, ih p cs, List.map_map]; rfl
  | bos => simp only [explore, RE.m]; split <;> rfl
  | eos =>
    simp only [explore, RE.m]
    by_cases h : atEnd s p = true
    · rw [if_pos (atEnd_iff.1 h), if_pos h]; rfl
    · rw [if_neg (fun h' => h (atEnd_iff.2 h')), if_neg h]; rfl

/-- At most so many ways, and at most so many tests. -/
def RE.cost : RE → Nat × Nat
  | .eps => (1, 0)
  | .chr _ | .bos | .eos => (1, 1)
  | .seq a b => (a.cost.1 * b.cost.1, a.cost.2 + a.cost.1 * b.cost.2)
  | .alt a b => (a.cost.1 + b.cost.1, a.cost.2 + b.cost.2)
  | .opt a => (a.cost.1 + 1, a.cost.2)
  | .rep _ lo hi => (hi.getD 0 + 1 - lo, hi.getD 0 + 1)
  | .grp _ a => a.cost

theorem sum_map_le {α : Type} (l : List α) (f : α → Nat) (k : Nat) (h : ∀ x ∈ l, f x ≤ k) :
    (l.map f).sum ≤ l.length * k := by
  induction l with
  | nil => simp
  | cons x l ih =>
    have h1 := h x List.mem_cons_self
    have h2 := ih fun y hy => h y (List.mem_cons_of_mem _ hy)
    simp only [List.map_cons, List.sum_cons, List.length_cons, Nat.succ_mul]
    omega

theorem explore_cost (s : PyStr) (r : RE) (hb : r.bounded = true) (p : Nat) :
    (explore s r p).1.length ≤ r.cost.1 ∧ (explore s r p).2 ≤ r.cost.2 := by
  induction r generalizing p with
  | eps => exact ⟨Nat.le_refl _, Nat.le_refl _⟩
  | chr cc => simp only [explore, RE.cost]; split <;> simp
  | bos => simp only [explore, RE.cost]; split <;> simp
  | eos => simp only [explore, RE.cost]; split <;> simp
  | seq a b iha ihb =>
    simp only [RE.bounded, Bool.and_eq_true] at hb
    obtain ⟨a1, a2⟩ := iha hb.1 p
    simp only [explore, RE.cost, List.map_map]
    constructor
    · rw [List.flatMap_map, List.length_flatMap]
      exact Nat.le_trans (sum_map_le _ _ b.cost.1 fun x _ => (ihb hb.2 x).1) (Nat.mul_le_mul_right _ a1)
    · exact Nat.add_le_add a2 (Nat.le_trans (sum_map_le _ _ b.cost.2 fun x _ => (ihb hb.2 x).2)
        (Nat.mul_le_mul_right _ a1))
  | alt a b iha ihb =>
    simp only [RE.bounded, Bool.and_eq_true] at hb
    have := iha hb.1 p
    have := ihb hb.2 p
    simp only [explore, RE.cost, List.length_append]
    omega
  | opt a ih =>
    have := ih hb p
    simp only [explore, RE.cost, List.length_append, List.length_singleton]
    omega
  | rep cc lo hi =>
    obtain ⟨x, rfl⟩ := Option.isSome_iff_exists.1 hb
    have := runFrom_le s cc x p
    simp only [explore, RE.cost, Option.getD_some, List.length_map]
    refine ⟨?_, by omega⟩
    have := downFrom_ends p [] lo (runFrom s cc x p)
    have := congrArg List.length this
    rw [List.length_map, List.length_map] at this
    rw [← this]
    exact Nat.le_trans (downFrom_length p [] lo _) (by omega)
  | grp n a ih => exact ih hb p

end Verif
