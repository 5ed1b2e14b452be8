import Verif.Lemmas.Strike
import Verif.Spec.Report
import Verif.Spec.Account

/-
Helper lemmas for C97: the decoded groups, cut by the positions of their handlers.
-/

namespace Verif
open Spec

variable {σ : Type}

theorem consumed_used : ∀ (gs : List PyStr) (a : List (Option Nat)), a.length = gs.length →
    (consumed gs a).map (·.2) = used a
  | [], [], _ => rfl
  | g :: gs, o :: a, h => by
    have ih := consumed_used gs a (by simpa using h)
    cases o with
    | none => simpa [consumed, used] using ih
    | some i => simpa [consumed, used] using ih
  | [], _ :: _, h => by simp at h
  | _ :: _, [], h => by simp at h

/-- The positions of the handlers increase strictly and are those of the table. -/
theorem decodes_order {hs : List (Handler σ)} {gs : List PyStr} {c : List (PyStr × Nat)}
    (hc : Decodes hs gs c) : c.Pairwise (fun x y => x.2 < y.2) ∧ ∀ x ∈ c, x.2 < hs.length := by
  have e := (decodes_iff _ _ _).1 hc
  have hu := consumed_used gs (assign hs 0 gs) (assign_length hs 0 gs)
  rw [← e] at hu
  obtain ⟨h1, h2⟩ := @assign_used σ hs 0 gs
  rw [← hu] at h1 h2
  refine ⟨List.pairwise_map.1 h2, fun x hx => (h1 x.2 (List.mem_map_of_mem hx)).2⟩

/-- Every group is decoded or left, once. -/
theorem decodes_perm {hs : List (Handler σ)} {gs un : List PyStr} {c : List (PyStr × Nat)}
    (hc : Decodes hs gs c) (hl : Leaves hs gs un) : gs.Perm (c.map (·.1) ++ un) := by
  have e := (decodes_iff _ _ _).1 hc
  obtain ⟨a, ha, hf, rfl⟩ := hl
  have e2 := (decodes_iff hs gs _).1 ⟨a, ha, hf, rfl⟩
  have hc' : c = consumed gs a := e.trans e2.symm
  rw [hc']
  clear hc hf e e2 hc' c
  induction gs generalizing a with
  | nil => cases a with
    | nil => exact .refl _
    | cons => simp at ha
  | cons g gs ih =>
    cases a with
    | nil => simp at ha
    | cons o a =>
      have ih := ih a (by simpa using ha)
      cases o with
      | none =>
        have := ih.cons g
        refine this.trans ?_
        simp only [consumed, leftover, List.zip_cons_cons, List.filterMap_cons, Option.map_none,
          Option.isNone_none, if_true]
        exact List.perm_middle.symm
      | some i =>
        have := ih.cons g
        simpa [consumed, leftover] using this

theorem taken_split {c : List (PyStr × Nat)} (hp : c.Pairwise (fun x y => x.2 < y.2)) {lo mid hi : Nat}
    (h1 : lo ≤ mid + 1) (h2 : mid ≤ hi) : taken c lo hi = taken c lo mid ++ taken c (mid + 1) hi := by
  induction c with
  | nil => rfl
  | cons x c ih =>
    obtain ⟨hx, hp⟩ := List.pairwise_cons.1 hp
    have ih := ih hp
    unfold taken at ih ⊢
    simp only [List.filter_cons]
    by_cases hm : x.2 ≤ mid
    · rw [if_neg (c := decide (mid + 1 ≤ x.2 ∧ x.2 ≤ hi) = true) (by simp; omega)]
      by_cases hl : lo ≤ x.2
      · rw [if_pos (by simp; omega), if_pos (by simp; omega), List.map_cons, List.map_cons, ih]
        rfl
      · rw [if_neg (by simp; omega), if_neg (by simp; omega), ih]
    · have hn : (c.filter fun x => decide (lo ≤ x.2 ∧ x.2 ≤ mid)) = [] := by
        rw [List.filter_eq_nil_iff]
        intro y hy
        have := hx y hy
        simp
        omega
      rw [hn] at ih ⊢
      rw [if_neg (c := decide (lo ≤ x.2 ∧ x.2 ≤ mid) = true) (by simp; omega)]
      by_cases hh : x.2 ≤ hi
      · rw [if_pos (by simp; omega), if_pos (by simp; omega), List.map_cons, List.map_cons, ih]
        rfl
      · rw [if_neg (by simp; omega), if_neg (by simp; omega), ih]

theorem codes_split {c : List (PyStr × Nat)} (hp : c.Pairwise (fun x y => x.2 < y.2)) {lo : Nat} (mid : Nat)
    {hi : Nat} (h1 : lo ≤ mid + 1) (h2 : mid ≤ hi) :
    codes c lo hi = codes c lo mid ++ codes c (mid + 1) hi := by
  unfold codes
  rw [taken_split hp h1 h2, List.map_append]

theorem taken_all {c : List (PyStr × Nat)} {n : Nat} (h : ∀ x ∈ c, x.2 < n + 1) :
    taken c 0 n = c.map (·.1) := by
  unfold taken
  rw [List.filter_eq_self.2]
  intro x hx
  have := h x hx
  simp
  omega

theorem taken_at_mem {c : List (PyStr × Nat)} {g : PyStr} {i : Nat} : g ∈ taken c i i ↔ (g, i) ∈ c := by
  unfold taken
  simp only [List.mem_map, List.mem_filter, decide_eq_true_eq]
  constructor
  · rintro ⟨⟨g', j⟩, ⟨h, h1, h2⟩, rfl⟩
    have : j = i := by simp at h1 h2; omega
    rw [← this]; exact h
  · exact fun h => ⟨_, ⟨h, by simp⟩, rfl⟩

theorem taken_unique {c : List (PyStr × Nat)} (hp : c.Pairwise (fun x y => x.2 < y.2)) (i : Nat) :
    (taken c i i).length ≤ 1 := by
  induction c with
  | nil => simp [taken]
  | cons x c ih =>
    obtain ⟨hx, hp⟩ := List.pairwise_cons.1 hp
    have ih := ih hp
    unfold taken at ih ⊢
    rw [List.filter_cons]
    by_cases h : i ≤ x.2 ∧ x.2 ≤ i
    · rw [if_pos (by simp [h])]
      have : (c.filter fun x => decide (i ≤ x.2 ∧ x.2 ≤ i)) = [] := by
        rw [List.filter_eq_nil_iff]
        intro y hy
        have := hx y hy
        simp
        omega
      rw [this]
      simp
    · rw [if_neg (by simpa using h)]
      exact ih

/-- The codes that are there. -/
theorem codeFrom_codes {c : List (PyStr × Nat)} (hp : c.Pairwise (fun x y => x.2 < y.2)) {i : Nat}
    {x : Option PyStr} (h : CodeFrom c i none x) : codes c i i = [x].filter Option.isSome := by
  have hu := taken_unique hp i
  rcases h with ⟨g, hg, rfl⟩ | ⟨hg, rfl⟩
  · have hm := taken_at_mem.2 hg
    unfold codes
    match ht : taken c i i, hu, hm with
    | [], _, hm => simp at hm
    | [y], _, hm =>
      simp only [List.mem_singleton] at hm
      rw [hm]; rfl
    | _ :: _ :: _, hu, _ => simp at hu
  · unfold codes
    match ht : taken c i i with
    | [] => rfl
    | y :: l =>
      exact absurd (taken_at_mem.1 (ht ▸ List.mem_cons_self : y ∈ taken c i i)) (hg y)

theorem codes_some (c : List (PyStr × Nat)) (lo hi : Nat) :
    (codes c lo hi).filter Option.isSome = codes c lo hi := by
  rw [List.filter_eq_self]
  unfold codes
  intro x hx
  obtain ⟨g, -, rfl⟩ := List.mem_map.1 hx
  rfl

/-! ### One attribute after the other -/

theorem present_one {c : List (PyStr × Nat)} (hp : c.Pairwise (fun x y => x.2 < y.2)) {i hi : Nat}
    {x : Option PyStr} {l : List (Option PyStr)} (hx : CodeFrom c i none x) (hi' : i ≤ hi)
    (h : codes c (i + 1) hi = present l) : codes c i hi = present (x :: l) := by
  rw [codes_split hp i (by omega) hi', codeFrom_codes hp hx, h]
  unfold present
  rw [← List.filter_append]
  rfl

theorem present_many {c : List (PyStr × Nat)} (hp : c.Pairwise (fun x y => x.2 < y.2)) {lo : Nat} (mid : Nat)
    {hi : Nat} {xs l : List (Option PyStr)} (hx : xs = codes c lo mid) (h1 : lo ≤ mid + 1) (h2 : mid ≤ hi)
    (h : codes c (mid + 1) hi = present l) : codes c lo hi = present (xs ++ l) := by
  rw [codes_split hp mid h1 h2, h, hx]
  unfold present
  rw [List.filter_append, codes_some]

theorem present_last {c : List (PyStr × Nat)} {lo hi : Nat} {xs : List (Option PyStr)}
    (hx : xs = codes c lo hi) : codes c lo hi = present xs := by
  rw [hx]; exact (codes_some _ _ _).symm

theorem present_end {c : List (PyStr × Nat)} (hp : c.Pairwise (fun x y => x.2 < y.2)) {i : Nat}
    {x : Option PyStr} (hx : CodeFrom c i none x) : codes c i i = present [x] := codeFrom_codes hp hx

/-- All the decoded groups: the one of position 0 and the others. -/
theorem codes_first {c : List (PyStr × Nat)} (hp : c.Pairwise (fun x y => x.2 < y.2)) {n : Nat}
    (hlt : ∀ x ∈ c, x.2 < n + 1) :
    c.map (fun x => some (shown x.1)) = codes c 0 0 ++ codes c 1 n := by
  rw [← codes_split hp 0 (by omega) (by omega)]
  unfold codes
  rw [taken_all hlt, List.map_map]
  rfl

theorem codes_type {c : List (PyStr × Nat)} (hp : c.Pairwise (fun x y => x.2 < y.2)) {d x : Option PyStr}
    (h : CodeFrom c 0 d x) :
    codes c 0 0 = [x] ∧ x ≠ none ∨ codes c 0 0 = [] ∧ x = d ∧ ∀ g, (g, 0) ∉ c := by
  rcases h with ⟨g, hg, e⟩ | ⟨hg, e⟩
  · left
    have := codeFrom_codes hp (i := 0) (x := x) (.inl ⟨g, hg, e⟩)
    rw [this, e]
    exact ⟨rfl, by simp⟩
  · right
    have := codeFrom_codes hp (i := 0) (x := none) (.inr ⟨hg, rfl⟩)
    exact ⟨this, e, hg⟩

theorem shown_plain {w : PyStr} (h : 95 ∉ w) : shown w = w := by
  unfold shown
  induction w with
  | nil => rfl
  | cons ch w ih =>
    simp only [List.mem_cons, not_or] at h
    rw [List.map_cons, ih h.2, if_neg (fun e => h.1 e.symm)]

theorem sideBySide_join : ∀ ws : List PyStr, sideBySide (ws.map some) = some (join [32] ws)
  | [] => rfl
  | [w] => rfl
  | w :: v :: ws => by
    have ih := sideBySide_join (v :: ws)
    show (some w).bind (fun x => (sideBySide ((v :: ws).map some)).map fun t => x ++ 32 :: t) = _
    rw [ih]
    simp [join]

end Verif
