import Verif.Lemmas.Account
import Verif.Lemmas.Complete
import Verif.Spec.Own

/-
Helper lemmas for C99.
-/

namespace Verif
open Spec

theorem sameAt_mem {c c' : List (PyStr × Nat)} {i : Nat} (h : SameAt c c' i i) (g : PyStr) :
    (g, i) ∈ c ↔ (g, i) ∈ c' := by
  rw [← taken_at_mem, ← taken_at_mem, h]

theorem FromGroup.same {α : Type} {c c' : List (PyStr × Nat)} (ho : Ordered c) {i : Nat} {re : RE}
    {f : Match → Except Exc α} {d x x' : α} (h : FromGroup c i re f d x) (h' : FromGroup c' i re f d x')
    (hs : SameAt c c' i i) : x = x' := by
  rcases h with ⟨g, m, e1, e2, e3⟩ | ⟨e1, e2⟩ <;> rcases h' with ⟨g', m', e1', e2', e3'⟩ | ⟨e1', e2'⟩
  · have := ordered_inj ho e1 ((sameAt_mem hs _).2 e1')
    subst this
    rw [e2, Option.some.injEq] at e2'
    subst e2'
    rw [e3, Except.ok.injEq] at e3'
    exact e3'
  · exact absurd ((sameAt_mem hs _).1 e1) (e1' g)
  · exact absurd ((sameAt_mem hs _).2 e1') (e1 g')
  · rw [e2, e2']

theorem each_same {α β : Type} {f : α → Option γ} {k : γ → Except Exc β} {l : List α} {xs ys : List β}
    (h : Each (fun g x => ∃ m, f g = some m ∧ k m = .ok x) l xs)
    (h' : Each (fun g x => ∃ m, f g = some m ∧ k m = .ok x) l ys) : xs = ys := by
  induction h generalizing ys with
  | nil => cases h'; rfl
  | cons hx _ ih =>
    cases h' with
    | cons hy h' =>
      obtain ⟨m, e1, e2⟩ := hx
      obtain ⟨m', e1', e2'⟩ := hy
      rw [e1, Option.some.injEq] at e1'
      subst e1'
      rw [e2, Except.ok.injEq] at e2'
      rw [e2', ih h']

theorem FromGroups.same {α : Type} {c c' : List (PyStr × Nat)} {lo hi : Nat} {re : RE}
    {f : Match → Except Exc α} {x x' : List α} (h : FromGroups c lo hi re f x)
    (h' : FromGroups c' lo hi re f x') (hs : SameAt c c' lo hi) : x = x' := by
  unfold FromGroups at h h'
  rw [← show taken c lo hi = taken c' lo hi from hs] at h'
  exact each_same h h'

theorem FromLast.same {α : Type} {c c' : List (PyStr × Nat)} {lo hi : Nat} {re : RE}
    {f : Match → Except Exc α} {d x x' : α} (h : FromLast c lo hi re f d x)
    (h' : FromLast c' lo hi re f d x') (hs : SameAt c c' lo hi) : x = x' := by
  unfold FromLast at h h'
  rw [← show taken c lo hi = taken c' lo hi from hs] at h'
  rcases h with ⟨g, m, e1, e2, e3⟩ | ⟨e1, e2⟩ <;> rcases h' with ⟨g', m', e1', e2', e3'⟩ | ⟨e1', e2'⟩
  · rw [e1, Option.some.injEq] at e1'
    subst e1'
    rw [e2, Option.some.injEq] at e2'
    subst e2'
    rw [e3, Except.ok.injEq] at e3'
    exact e3'
  · rw [e1'] at e1; cases e1
  · rw [e1] at e1'; cases e1'
  · rw [e2, e2']

/-- A part of the state that only the handlers up to `k` change, and these in a way that depends on this
part only, depends on the groups taken at these places only. -/
theorem runs_part {σ α : Type} {hs : List (Handler σ)} {π : σ → α} {k : Nat}
    (hlow : ∀ i h, hs[i]? = some h → i ≤ k → ∀ m s1 s2 t1 t2, π s1 = π s2 → h.run m s1 = .ok t1 →
      h.run m s2 = .ok t2 → π t1 = π t2)
    (hhigh : ∀ i h, hs[i]? = some h → k < i → ∀ m s t, h.run m s = .ok t → π t = π s)
    {c c' : List (PyStr × Nat)} (ho : Ordered c) (ho' : Ordered c') {s s' t t' : σ}
    (hr : Runs hs c s (.ok t)) (hr' : Runs hs c' s' (.ok t'))
    (hsame : ∀ i ≤ k, SameAt c c' i i) (h0 : π s = π s') : π t = π t' := by
  have rest : ∀ {c : List (PyStr × Nat)} {s t : σ}, Runs hs c s (.ok t) → (∀ x ∈ c, k < x.2) → π t = π s := by
    intro c
    induction c with
    | nil => intro s t h _; cases h; rfl
    | cons x c ih =>
      intro s t h hx
      cases h with
      | step h1 h2 h3 h4 =>
        rw [ih h4 fun y hy => hx y (List.mem_cons_of_mem _ hy)]
        exact hhigh _ _ h1 (hx _ List.mem_cons_self) _ _ _ h3
  have above : ∀ {g : PyStr} {i : Nat} {c : List (PyStr × Nat)}, Ordered ((g, i) :: c) → k < i →
      ∀ x ∈ (g, i) :: c, k < x.2 := by
    intro g i c ho hi x hx
    rcases List.mem_cons.1 hx with rfl | hx
    · exact hi
    · exact Nat.lt_trans hi ((List.pairwise_cons.1 ho).1 x hx)
  have none : ∀ {c c' : List (PyStr × Nat)}, (∀ i ≤ k, SameAt c c' i i) → (∀ x ∈ c, k < x.2) →
      ∀ x ∈ c', k < x.2 := by
    intro c c' hsame hc x hx
    refine Nat.lt_of_not_le fun hle => ?_
    have := hc (x.1, x.2) ((sameAt_mem (hsame x.2 hle) x.1).2 hx)
    simp only at this
    omega
  induction c generalizing c' s s' with
  | nil =>
    rw [rest hr (by simp), rest hr' (none hsame (by simp)), h0]
  | cons x c ih =>
    obtain ⟨g, i⟩ := x
    by_cases hi : k < i
    · rw [rest hr (above ho hi), rest hr' (none hsame (above ho hi)), h0]
    · have hi : i ≤ k := Nat.le_of_not_lt hi
      cases c' with
      | nil =>
        have := (sameAt_mem (hsame i hi) g).1 List.mem_cons_self
        cases this
      | cons y c' =>
        obtain ⟨g', j⟩ := y
        have hm := (sameAt_mem (hsame i hi) g).1 List.mem_cons_self
        have hij : j ≤ i := by
          rcases List.mem_cons.1 hm with e | e
          · cases e; exact Nat.le_refl _
          · exact Nat.le_of_lt ((List.pairwise_cons.1 ho').1 _ e)
        have hm' := (sameAt_mem (hsame j (Nat.le_trans hij hi)) g').2 List.mem_cons_self
        have hji : i ≤ j := by
          rcases List.mem_cons.1 hm' with e | e
          · cases e; exact Nat.le_refl _
          · exact Nat.le_of_lt ((List.pairwise_cons.1 ho).1 _ e)
        obtain rfl : i = j := Nat.le_antisymm hji hij
        obtain rfl : g = g' := ordered_inj ho' hm List.mem_cons_self
        cases hr with
        | step h1 h2 h3 h4 =>
          cases hr' with
          | step h1' h2' h3' h4' =>
            rw [h1, Option.some.injEq] at h1'
            subst h1'
            rw [h2, Option.some.injEq] at h2'
            subst h2'
            refine ih (List.pairwise_cons.1 ho).2 (List.pairwise_cons.1 ho').2 h4 h4' ?_
              (hlow _ _ h1 hi _ _ _ _ _ h0 h3 h3')
            intro q hq
            have := hsame q hq
            unfold SameAt taken at this ⊢
            simp only [List.filter_cons] at this
            split at this
            · simpa using this
            · exact this

/-- `should_be_cavok` reads the list and the cursor only. -/
theorem cavokGo_same (same : Bool) (f : Nat) (g g' : GroupList Cloud) (hl : g.list = g'.list) (hn : g.n = g'.n) :
    (Core.cavokGo same f g).1 = (Core.cavokGo same f g').1 := by
  induction f generalizing g g' with
  | zero => rfl
  | succ f ih =>
    obtain ⟨n, x, l⟩ := g
    obtain ⟨n', x', l'⟩ := g'
    simp only at hl hn
    subst hl hn
    unfold Core.cavokGo GroupList.next
    by_cases hb : n ≥ l.length
    · simp only [hb, if_true]
    · simp only [hb, if_false]
      cases l[n]? with
      | none => rfl
      | some c =>
        have := ih ⟨n + 1, x, l⟩ ⟨n + 1, x', l⟩ rfl rfl
        simp only
        repeat' split
        all_goals first | rfl | exact this

end Verif
