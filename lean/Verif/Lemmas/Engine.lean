import Verif.Spec.Engine
import Verif.Lemmas.Sub

/-
The engine of Model `Py/Regex.lean` against the ways of `Spec/Engine.lean`.
-/

namespace Verif
open Spec

/-! ### Preference -/

theorem not_preferred_self (w : List Nat) : ¬ Preferred w w := by
  rintro ⟨u, x, y, w', v', h1, h2, hlt⟩
  have := List.append_cancel_left (h1.symm.trans h2)
  simp only [List.cons.injEq] at this
  omega

theorem preferred_cons {w v : List Nat} (h : Preferred w v) (x : Nat) :
    Preferred (x :: w) (x :: v) := by
  obtain ⟨u, a, b, w', v', h1, h2, hlt⟩ := h
  exact ⟨x :: u, a, b, w', v', by simp [h1], by simp [h2], hlt⟩

theorem preferred_append_left {w v : List Nat} (h : Preferred w v) (u : List Nat) :
    Preferred (u ++ w) (u ++ v) := by
  induction u with
  | nil => exact h
  | cons x u ih => exact preferred_cons ih x

theorem preferred_append_right {w v : List Nat} (h : Preferred w v) (a b : List Nat) :
    Preferred (w ++ a) (v ++ b) := by
  obtain ⟨u, x, y, w', v', h1, h2, hlt⟩ := h
  exact ⟨u, x, y, w' ++ a, v' ++ b, by simp [h1], by simp [h2], hlt⟩

/-! ### The engine with its choices -/

/-- A way: choices, end, captures. -/
abbrev Trace := List Nat × Nat × Caps

def tracesDown (p lo : Nat) : Nat → List Trace
  | 0 => if lo = 0 then [([0], p, [])] else []
  | n + 1 => if lo ≤ n + 1 then ([n + 1], p + (n + 1), []) :: tracesDown p lo n else []

def RE.traces (s : PyStr) : RE → Nat → List Trace
  | .eps, p => [([], p, [])]
  | .chr cc, p =>
    match s[p]? with
    | some c => if cc.mem c then [([], p + 1, [])] else []
    | none => []
  | .seq a b, p => (RE.traces s a p).flatMap fun t =>
      (RE.traces s b t.2.1).map fun u => (t.1 ++ u.1, u.2.1, u.2.2 ++ t.2.2)
  | .alt a b, p => (RE.traces s a p).map (fun t => (1 :: t.1, t.2)) ++
      (RE.traces s b p).map (fun t => (0 :: t.1, t.2))
  | .opt a, p => (RE.traces s a p).map (fun t => (1 :: t.1, t.2)) ++ [([0], p, [])]
  | .rep cc lo hi, p => tracesDown p lo (runLen s cc (hi.getD s.length) p)
  | .grp n a, p => (RE.traces s a p).map fun t => (t.1, t.2.1, (n, p, t.2.1) :: t.2.2)
  | .bos, p => if p = 0 then [([], p, [])] else []
  | .eos, p => if atEnd s p then [([], p, [])] else []

theorem downFrom_traces (p lo n : Nat) (cs : Caps) :
    downFrom p cs lo n = (tracesDown p lo n).map fun t => (t.2.1, t.2.2 ++ cs) := by
  induction n with
  | zero => rw [downFrom, tracesDown]; split <;> simp
  | succ n ih => rw [downFrom, tracesDown]; split <;> simp [ih]

theorem RE.m_traces (s : PyStr) (r : RE) (p : Nat) (cs : Caps) :
    RE.m s r (p, cs) = (RE.traces s r p).map fun t => (t.2.1, t.2.2 ++ cs) := by
  induction r generalizing p cs with
  | eps => simp [RE.m, RE.traces]
  | chr cc =>
    simp only [RE.m, RE.traces]
    cases s[p]? with
    | none => rfl
    | some c => simp only; split <;> simp
  | seq a b iha ihb =>
    simp only [RE.m, RE.traces, iha, List.flatMap_map, List.map_flatMap, ihb, List.map_map]
    congr 1
    funext t
    apply List.map_congr_left
    intro u _
    simp
  | alt a b iha ihb => simp [RE.m, RE.traces, iha, ihb, Function.comp_def]
  | opt a ih => simp [RE.m, RE.traces, ih, Function.comp_def]
  | rep cc lo hi => simp only [RE.m, RE.traces]; exact downFrom_traces ..
  | grp n a ih => simp [RE.m, RE.traces, ih, Function.comp_def]
  | bos => simp only [RE.m, RE.traces]; split <;> simp
  | eos => simp only [RE.m, RE.traces]; split <;> simp

/-- Runs. -/
theorem le_runLen_iff (s : PyStr) (cc : CC) (f p k : Nat) :
    k ≤ runLen s cc f p ↔ k ≤ f ∧ ∀ i < k, ∃ c, s[p + i]? = some c ∧ cc.mem c = true := by
  induction f generalizing p k with
  | zero =>
    simp only [runLen, Nat.le_zero]
    constructor
    · rintro rfl; simp
    · exact fun h => h.1
  | succ f ih =>
    cases k with
    | zero => simp
    | succ k =>
      rw [runLen]
      constructor
      · intro h
        cases hp : s[p]? with
        | none => rw [hp] at h; simp at h
        | some c =>
          rw [hp] at h
          simp only at h
          by_cases hc : cc.mem c = true
          · rw [if_pos hc] at h
            obtain ⟨h1, h2⟩ := (ih (p + 1) k).1 (by omega)
            refine ⟨by omega, fun i hi => ?_⟩
            cases i with
            | zero => exact ⟨c, by simpa using hp, hc⟩
            | succ i =>
              obtain ⟨d, hd, hm⟩ := h2 i (by omega)
              exact ⟨d, by rw [← hd]; congr 1; omega, hm⟩
          · rw [if_neg hc] at h; omega
      · rintro ⟨h1, h2⟩
        obtain ⟨c, hc, hm⟩ := h2 0 (by omega)
        rw [Nat.add_zero] at hc
        rw [hc]
        simp only [hm, if_true]
        have := (ih (p + 1) k).2 ⟨by omega, fun i hi => by
          obtain ⟨d, hd, hm⟩ := h2 (i + 1) (by omega)
          exact ⟨d, by rw [← hd]; congr 1; omega, hm⟩⟩
        omega

theorem mem_tracesDown {p lo n : Nat} {t : Trace} :
    t ∈ tracesDown p lo n ↔ ∃ k, lo ≤ k ∧ k ≤ n ∧ t = ([k], p + k, []) := by
  induction n with
  | zero =>
    rw [tracesDown]
    split
    · rename_i h; subst h
      simp only [List.mem_singleton]
      constructor
      · rintro rfl; exact ⟨0, by omega, by omega, rfl⟩
      · rintro ⟨k, _, hk, rfl⟩
        obtain rfl : k = 0 := by omega
        rfl
    · simp only [List.not_mem_nil, false_iff]
      rintro ⟨k, _, _, _⟩; omega
  | succ n ih =>
    rw [tracesDown]
    split
    · simp only [List.mem_cons, ih]
      constructor
      · rintro (rfl | ⟨k, h1, h2, rfl⟩)
        · exact ⟨n + 1, by omega, by omega, rfl⟩
        · exact ⟨k, h1, by omega, rfl⟩
      · rintro ⟨k, h1, h2, rfl⟩
        by_cases h : k = n + 1
        · subst h; exact .inl rfl
        · exact .inr ⟨k, h1, by omega, rfl⟩
    · simp only [List.not_mem_nil, false_iff]
      rintro ⟨k, _, _, _⟩; omega

theorem atEnd_iff {s : PyStr} {p : Nat} :
    atEnd s p = true ↔ p = s.length ∨ (p + 1 = s.length ∧ s[p]? = some 10) := by
  simp [atEnd]

/-- The engine lists exactly the ways. -/
theorem RE.mem_traces {s : PyStr} {r : RE} {p : Nat} {t : Trace} :
    t ∈ RE.traces s r p ↔ Way s r p t.1 t.2.1 t.2.2 := by
  induction r generalizing p t with
  | eps =>
    simp only [RE.traces, List.mem_singleton]
    constructor
    · rintro rfl; exact .eps p
    · intro h
      obtain ⟨w, q, cs⟩ := t
      simp only at h; cases h; rfl
  | chr cc =>
    obtain ⟨w, q, cs⟩ := t
    simp only [RE.traces]
    constructor
    · intro h
      cases hp : s[p]? with
      | none => rw [hp] at h; simp at h
      | some c =>
        rw [hp] at h
        simp only at h
        split at h
        · simp only [List.mem_singleton, Prod.mk.injEq] at h
          obtain ⟨rfl, rfl, rfl⟩ := h
          exact .chr hp ‹_›
        · simp at h
    · intro h
      cases h with
      | chr hp hm => rw [hp]; simp [hm]
  | seq a b iha ihb =>
    obtain ⟨w, q, cs⟩ := t
    simp only [RE.traces, List.mem_flatMap, List.mem_map, iha, ihb]
    constructor
    · rintro ⟨t, ht, u, hu, h⟩
      simp only [Prod.mk.injEq] at h
      obtain ⟨rfl, rfl, rfl⟩ := h
      exact .seq ht hu
    · intro h
      cases h with
      | seq h1 h2 => exact ⟨(_, _, _), h1, (_, _, _), h2, rfl⟩
  | alt a b iha ihb =>
    obtain ⟨w, q, cs⟩ := t
    simp only [RE.traces, List.mem_append, List.mem_map, iha, ihb]
    constructor
    · rintro (⟨⟨w', q', cs'⟩, ht, h⟩ | ⟨⟨w', q', cs'⟩, ht, h⟩)
      · simp only [Prod.mk.injEq] at h
        obtain ⟨rfl, rfl, rfl⟩ := h
        exact .left ht
      · simp only [Prod.mk.injEq] at h
        obtain ⟨rfl, rfl, rfl⟩ := h
        exact .right ht
    · intro h
      cases h with
      | left h => exact .inl ⟨(_, _, _), h, rfl⟩
      | right h => exact .inr ⟨(_, _, _), h, rfl⟩
  | opt a ih =>
    obtain ⟨w, q, cs⟩ := t
    simp only [RE.traces, List.mem_append, List.mem_map, ih, List.mem_singleton]
    constructor
    · rintro (⟨⟨w', q', cs'⟩, ht, h⟩ | h)
      · simp only [Prod.mk.injEq] at h
        obtain ⟨rfl, rfl, rfl⟩ := h
        exact .use ht
      · simp only [Prod.mk.injEq] at h
        obtain ⟨rfl, rfl, rfl⟩ := h
        exact .skip _
    · intro h
      cases h with
      | use h => exact .inl ⟨(_, _, _), h, rfl⟩
      | skip => exact .inr rfl
  | rep cc lo hi =>
    obtain ⟨w, q, cs⟩ := t
    simp only [RE.traces, mem_tracesDown, le_runLen_iff, Prod.mk.injEq]
    constructor
    · rintro ⟨k, h1, ⟨h2, h3⟩, rfl, rfl, rfl⟩
      refine .rep h1 (fun h hh => ?_) h3
      subst hh; exact h2
    · intro h
      cases h with
      | @rep _ _ _ _ k h1 h2 h3 =>
        refine ⟨k, h1, ⟨?_, h3⟩, rfl, rfl, rfl⟩
        cases hi with
        | some h => exact h2 h rfl
        | none =>
          cases k with
          | zero => omega
          | succ k =>
            obtain ⟨c, hc, _⟩ := h3 k (by omega)
            have := (List.getElem?_eq_some_iff.1 hc).1
            simp only [Option.getD_none]; omega
  | grp n a ih =>
    obtain ⟨w, q, cs⟩ := t
    simp only [RE.traces, List.mem_map, ih, Prod.mk.injEq]
    constructor
    · rintro ⟨t, ht, rfl, rfl, rfl⟩; exact .grp ht
    · intro h
      cases h with
      | grp h => exact ⟨(_, _, _), h, rfl, rfl, rfl⟩
  | bos =>
    obtain ⟨w, q, cs⟩ := t
    simp only [RE.traces]
    constructor
    · intro h
      split at h
      · rename_i hp; subst hp
        simp only [List.mem_singleton, Prod.mk.injEq] at h
        obtain ⟨rfl, rfl, rfl⟩ := h; exact .bos
      · simp at h
    · intro h; cases h; simp
  | eos =>
    obtain ⟨w, q, cs⟩ := t
    simp only [RE.traces]
    constructor
    · intro h
      split at h
      · rename_i hp
        simp only [List.mem_singleton, Prod.mk.injEq] at h
        obtain ⟨rfl, rfl, rfl⟩ := h; exact .eos (atEnd_iff.1 hp)
      · simp at h
    · intro h
      cases h with
      | eos h => rw [if_pos (atEnd_iff.2 h)]; simp

/-- The engine lists them in order of preference. -/
theorem RE.traces_sorted (s : PyStr) (r : RE) (p : Nat) :
    (RE.traces s r p).Pairwise fun t u => Preferred t.1 u.1 := by
  induction r generalizing p with
  | eps => simp [RE.traces]
  | chr cc =>
    simp only [RE.traces]
    split
    · split <;> simp
    · simp
  | seq a b iha ihb =>
    simp only [RE.traces]
    rw [List.pairwise_flatMap]
    refine ⟨fun t _ => ?_, (iha p).imp ?_⟩
    · rw [List.pairwise_map]
      exact (ihb _).imp fun h => preferred_append_left h _
    · intro t u h x hx y hy
      simp only [List.mem_map] at hx hy
      obtain ⟨x', _, rfl⟩ := hx
      obtain ⟨y', _, rfl⟩ := hy
      exact preferred_append_right h _ _
  | alt a b iha ihb =>
    simp only [RE.traces]
    rw [List.pairwise_append, List.pairwise_map, List.pairwise_map]
    refine ⟨(iha p).imp fun h => preferred_cons h _, (ihb p).imp fun h => preferred_cons h _, ?_⟩
    intro x hx y hy
    simp only [List.mem_map] at hx hy
    obtain ⟨x', _, rfl⟩ := hx
    obtain ⟨y', _, rfl⟩ := hy
    exact ⟨[], 1, 0, _, _, rfl, rfl, by omega⟩
  | opt a ih =>
    simp only [RE.traces]
    rw [List.pairwise_append, List.pairwise_map]
    refine ⟨(ih p).imp fun h => preferred_cons h _, by simp, ?_⟩
    intro x hx y hy
    simp only [List.mem_map, List.mem_singleton] at hx hy
    obtain ⟨x', _, rfl⟩ := hx
    subst hy
    exact ⟨[], 1, 0, _, _, rfl, rfl, by omega⟩
  | rep cc lo hi =>
    simp only [RE.traces]
    generalize runLen s cc (hi.getD s.length) p = n
    induction n with
    | zero => rw [tracesDown]; split <;> simp
    | succ n ih =>
      rw [tracesDown]
      split
      · rw [List.pairwise_cons]
        refine ⟨fun t ht => ?_, ih⟩
        obtain ⟨k, _, hk, rfl⟩ := mem_tracesDown.1 ht
        exact ⟨[], n + 1, k, [], [], rfl, rfl, by omega⟩
      · simp
  | grp n a ih =>
    simp only [RE.traces]
    rw [List.pairwise_map]
    exact ih p
  | bos => simp only [RE.traces]; split <;> simp
  | eos => simp only [RE.traces]; split <;> simp

/-! ### Choices -/

theorem pairwise_find {α : Type} {R : α → α → Prop} {l : List α} (h : l.Pairwise R) {x y : α}
    (hx : x ∈ l) (hy : y ∈ l) : x = y ∨ R x y ∨ R y x := by
  induction h with
  | nil => simp at hx
  | cons hl _ ih =>
    rcases List.mem_cons.1 hx with rfl | hx'
    · rcases List.mem_cons.1 hy with rfl | hy'
      · exact .inl rfl
      · exact .inr (.inl (hl _ hy'))
    · rcases List.mem_cons.1 hy with rfl | hy'
      · exact .inr (.inr (hl _ hx'))
      · exact ih hx' hy'

theorem way_compare {s : PyStr} {r : RE} {p q t : Nat} {w v : List Nat} {cs ds : Caps}
    (h1 : Way s r p w q cs) (h2 : Way s r p v t ds) :
    (w = v ∧ q = t ∧ cs = ds) ∨ Preferred w v ∨ Preferred v w := by
  have := pairwise_find (RE.traces_sorted s r p)
    (RE.mem_traces (t := (w, q, cs)).2 h1) (RE.mem_traces (t := (v, t, ds)).2 h2)
  rcases this with h | h | h
  · simp only [Prod.mk.injEq] at h; exact .inl h
  · exact .inr (.inl h)
  · exact .inr (.inr h)

theorem way_det {s : PyStr} {r : RE} {p q t : Nat} {w : List Nat} {cs ds : Caps}
    (h1 : Way s r p w q cs) (h2 : Way s r p w t ds) : q = t ∧ cs = ds := by
  rcases way_compare h1 h2 with h | h | h
  · exact h.2
  · exact absurd h (not_preferred_self _)
  · exact absurd h (not_preferred_self _)

theorem preferred_asymm {w v : List Nat} (h1 : Preferred w v) (h2 : Preferred v w) : False := by
  obtain ⟨u, x, y, w', v', rfl, rfl, hlt⟩ := h1
  obtain ⟨u', x', y', w'', v'', e1, e2, hlt'⟩ := h2
  induction u generalizing u' with
  | nil =>
    cases u' with
    | nil => simp at e1 e2; omega
    | cons a u' => simp at e1 e2; omega
  | cons a u ih =>
    cases u' with
    | nil => simp at e1 e2; omega
    | cons b u' =>
      simp only [List.cons_append, List.cons.injEq] at e1 e2
      exact ih u' e1.2 e2.2

theorem firstWay_det {s : PyStr} {r : RE} {p q t : Nat} {cs ds : Caps}
    (h1 : FirstWay s r p q cs) (h2 : FirstWay s r p t ds) : q = t ∧ cs = ds := by
  obtain ⟨w, hw, hw'⟩ := h1
  obtain ⟨v, hv, hv'⟩ := h2
  rcases hw' v _ _ hv with rfl | h
  · exact way_det hw hv
  · rcases hv' w _ _ hw with rfl | h'
    · exact way_det hw hv
    · exact (preferred_asymm h h').elim

theorem traces_head {s : PyStr} {r : RE} {p q : Nat} {cs : Caps} :
    (∃ w, (RE.traces s r p).head? = some (w, q, cs)) ↔ FirstWay s r p q cs := by
  constructor
  · rintro ⟨w, h⟩
    refine ⟨w, RE.mem_traces.1 (List.mem_of_mem_head? (by rw [h]; rfl)), fun v t ds hv => ?_⟩
    have hs := RE.traces_sorted s r p
    have hm := RE.mem_traces (t := (v, t, ds)).2 hv
    cases hl : RE.traces s r p with
    | nil => rw [hl] at h; simp at h
    | cons x l =>
      rw [hl] at h hs hm
      simp only [List.head?_cons, Option.some.injEq] at h
      subst h
      rcases List.mem_cons.1 hm with h | h
      · simp only [Prod.mk.injEq] at h; exact .inl h.1
      · exact .inr ((List.pairwise_cons.1 hs).1 _ h)
  · intro h
    obtain ⟨w, hw, hw'⟩ := h
    have hm := RE.mem_traces (t := (w, q, cs)).2 hw
    cases hl : RE.traces s r p with
    | nil => rw [hl] at hm; simp at hm
    | cons x l =>
      have hs := RE.traces_sorted s r p
      rw [hl] at hm hs
      rcases List.mem_cons.1 hm with h | h
      · exact ⟨w, by simp [h]⟩
      · exfalso
        have hx : x ∈ RE.traces s r p := by rw [hl]; simp
        have hp := (List.pairwise_cons.1 hs).1 _ h
        rcases hw' x.1 x.2.1 x.2.2 (RE.mem_traces.1 hx) with h' | h'
        · rw [h'] at hp; exact not_preferred_self _ hp
        · exact preferred_asymm hp h'

theorem traces_nil {s : PyStr} {r : RE} {p : Nat} : RE.traces s r p = [] ↔ NoWay s r p := by
  constructor
  · intro h w q cs hw
    have := RE.mem_traces (t := (w, q, cs)).2 hw
    rw [h] at this; simp at this
  · intro h
    rw [List.eq_nil_iff_forall_not_mem]
    exact fun t ht => h _ _ _ (RE.mem_traces.1 ht)

theorem match_iff {r : RE} {s : PyStr} {m : Match} :
    r.match s = some m ↔ m.string = s ∧ FirstWay s r 0 m.stop m.caps := by
  rw [← traces_head, RE.match, RE.m_traces]
  cases hl : RE.traces s r 0 with
  | nil => simp
  | cons x l =>
    obtain ⟨w, q, cs⟩ := x
    obtain ⟨ms, me, mc⟩ := m
    simp only [List.map_cons, List.append_nil, List.head?_cons, Option.map_some,
      Option.some.injEq, Match.mk.injEq, Prod.mk.injEq]
    constructor
    · rintro ⟨rfl, rfl, rfl⟩; exact ⟨rfl, w, rfl, rfl, rfl⟩
    · rintro ⟨rfl, _, _, rfl, rfl⟩; exact ⟨rfl, rfl, rfl⟩

theorem match_none_iff {r : RE} {s : PyStr} : r.match s = none ↔ NoWay s r 0 := by
  rw [← traces_nil, RE.match, RE.m_traces]
  cases RE.traces s r 0 <;> simp

theorem firstWay_or_none (s : PyStr) (r : RE) (p : Nat) :
    (∃ q cs, FirstWay s r p q cs) ∨ NoWay s r p := by
  cases hl : RE.traces s r p with
  | nil => exact .inr (traces_nil.1 hl)
  | cons x l => exact .inl ⟨x.2.1, x.2.2, traces_head.1 ⟨x.1, by rw [hl]; rfl⟩⟩

/-! ### Groups -/

theorem lookup_some_iff {cs : Caps} {n : Cap} {a b : Nat} :
    cs.lookup n = some (a, b) ↔ ∃ l l', cs = l ++ (n, a, b) :: l' ∧ ∀ c ∈ l, c.1 ≠ n := by
  induction cs with
  | nil => simp
  | cons x cs ih =>
    obtain ⟨k, x1, x2⟩ := x
    rw [List.lookup_cons]
    by_cases hk : n = k
    · subst hk
      simp only [beq_self_eq_true, Option.some.injEq, Prod.mk.injEq]
      constructor
      · rintro ⟨rfl, rfl⟩; exact ⟨[], cs, rfl, by simp⟩
      · rintro ⟨l, l', h, hl⟩
        cases l with
        | nil => simp at h; exact ⟨h.1.1, h.1.2⟩
        | cons y l =>
          simp only [List.cons_append, List.cons.injEq] at h
          exact absurd (by rw [← h.1]) (hl y (by simp))
    · have : (n == k) = false := by simpa using hk
      rw [this]
      simp only [ih]
      constructor
      · rintro ⟨l, l', rfl, hl⟩
        refine ⟨(k, x1, x2) :: l, l', rfl, fun c hc => ?_⟩
        rcases List.mem_cons.1 hc with rfl | hc
        · exact fun e => hk e.symm
        · exact hl c hc
      · rintro ⟨l, l', h, hl⟩
        cases l with
        | nil => simp at h; exact absurd h.1.1.symm hk
        | cons y l =>
          simp only [List.cons_append, List.cons.injEq] at h
          exact ⟨l, l', h.2, fun c hc => hl c (by simp [hc])⟩

theorem group_some_iff {m : Match} {n : Cap} {x : PyStr} :
    m.group n = some x ↔ Captured m.string m.caps n x := by
  rw [Match.group, Option.map_eq_some_iff, Captured]
  constructor
  · rintro ⟨⟨a, b⟩, h, rfl⟩
    obtain ⟨l, l', h1, h2⟩ := lookup_some_iff.1 h
    exact ⟨l, a, b, l', h1, h2, rfl⟩
  · rintro ⟨l, a, b, l', h1, h2, rfl⟩
    exact ⟨(a, b), lookup_some_iff.2 ⟨l, l', h1, h2⟩, rfl⟩

theorem group_none_iff {m : Match} {n : Cap} :
    m.group n = none ↔ ∀ c ∈ m.caps, c.1 ≠ n := by
  rw [Match.group, Option.map_eq_none_iff, List.lookup_eq_none_iff]
  constructor
  · intro h c hc e
    have := h c hc
    simp [e] at this
  · intro h c hc
    simpa using fun e => h c hc e.symm

/-! ### Within a longer text -/

/-- Positions moved by `k`. -/
def shiftCaps (k : Nat) (cs : Caps) : Caps := cs.map fun c => (c.1, c.2.1 + k, c.2.2 + k)

theorem shiftCaps_append (k : Nat) (a b : Caps) :
    shiftCaps k (a ++ b) = shiftCaps k a ++ shiftCaps k b := by simp [shiftCaps]

theorem way_le {s : PyStr} {r : RE} {p q : Nat} {w : List Nat} {cs : Caps}
    (h : Way s r p w q cs) : p ≤ q := by
  induction h <;> omega

theorem way_length {s : PyStr} {r : RE} {p q : Nat} {w : List Nat} {cs : Caps}
    (h : Way s r p w q cs) (hp : p ≤ s.length) : q ≤ s.length := by
  induction h with
  | eps => exact hp
  | chr h _ => have := (List.getElem?_eq_some_iff.1 h).1; omega
  | seq _ _ ih1 ih2 => exact ih2 (ih1 hp)
  | left _ ih => exact ih hp
  | right _ ih => exact ih hp
  | use _ ih => exact ih hp
  | skip => exact hp
  | @rep _ _ _ p k _ _ h =>
    cases k with
    | zero => exact hp
    | succ k =>
      obtain ⟨c, hc, _⟩ := h k (by omega)
      have := (List.getElem?_eq_some_iff.1 hc).1; omega
  | grp _ ih => exact ih hp
  | bos => omega
  | eos _ => exact hp

theorem way_beyond {s : PyStr} {r : RE} {p q : Nat} {w : List Nat} {cs : Caps}
    (h : Way s r p w q cs) (hp : s.length < p) : q = p := by
  induction h with
  | eps => rfl
  | chr h _ => have := (List.getElem?_eq_some_iff.1 h).1; omega
  | seq _ _ ih1 ih2 => have := ih1 hp; subst this; exact ih2 hp
  | left _ ih => exact ih hp
  | right _ ih => exact ih hp
  | use _ ih => exact ih hp
  | skip => rfl
  | @rep _ _ _ p k _ _ h =>
    cases k with
    | zero => rfl
    | succ k =>
      obtain ⟨c, hc, _⟩ := h k (by omega)
      have := (List.getElem?_eq_some_iff.1 hc).1; omega
  | grp _ ih => exact ih hp
  | bos => omega
  | eos _ => rfl

theorem way_shift {s : PyStr} {r : RE} {p q k : Nat} {w : List Nat} {cs : Caps}
    (hn : NoCaret r) (h : Way (s.drop k) r p w q cs) (hk : k ≤ s.length) :
    Way s r (p + k) w (q + k) (shiftCaps k cs) := by
  induction h with
  | eps => exact .eps _
  | @chr cc p c h hm =>
    rw [show p + 1 + k = p + k + 1 by omega]
    refine .chr ?_ hm
    rw [List.getElem?_drop, Nat.add_comm] at h; exact h
  | seq _ _ ih1 ih2 =>
    rw [shiftCaps_append]; exact .seq (ih1 hn.1) (ih2 hn.2)
  | left _ ih => exact .left (ih hn.1)
  | right _ ih => exact .right (ih hn.2)
  | use _ ih => exact .use (ih hn)
  | skip => exact .skip _
  | @rep cc lo hi p j h1 h2 h3 =>
    rw [show p + j + k = p + k + j by omega]
    refine .rep h1 h2 fun i hi => ?_
    obtain ⟨c, hc, hm⟩ := h3 i hi
    rw [List.getElem?_drop] at hc
    exact ⟨c, by rw [← hc]; congr 1; omega, hm⟩
  | grp _ ih => exact .grp (ih hn)
  | bos => exact hn.elim
  | @eos p h =>
    refine .eos ?_
    rw [List.length_drop, List.getElem?_drop] at h
    rcases h with h | ⟨h, h'⟩
    · exact .inl (by omega)
    · refine .inr ⟨by omega, ?_⟩
      rw [← h']; congr 1; omega

theorem way_unshift {s : PyStr} {r : RE} {p q k : Nat} {w : List Nat} {cs : Caps}
    (hn : NoCaret r) (h : Way s r p w q cs) (hk : k ≤ p) :
    ∃ ds, Way (s.drop k) r (p - k) w (q - k) ds ∧ cs = shiftCaps k ds := by
  induction h with
  | eps => exact ⟨[], .eps _, rfl⟩
  | @chr cc p c h hm =>
    refine ⟨[], ?_, rfl⟩
    rw [show p + 1 - k = p - k + 1 by omega]
    refine .chr ?_ hm
    rw [List.getElem?_drop, ← h]; congr 1; omega
  | seq h1 h2 ih1 ih2 =>
    obtain ⟨d1, w1, rfl⟩ := ih1 hn.1 hk
    obtain ⟨d2, w2, rfl⟩ := ih2 hn.2 (by have := way_le h1; omega)
    exact ⟨d2 ++ d1, .seq w1 w2, by rw [shiftCaps_append]⟩
  | left _ ih => obtain ⟨d, w, rfl⟩ := ih hn.1 hk; exact ⟨d, .left w, rfl⟩
  | right _ ih => obtain ⟨d, w, rfl⟩ := ih hn.2 hk; exact ⟨d, .right w, rfl⟩
  | use _ ih => obtain ⟨d, w, rfl⟩ := ih hn hk; exact ⟨d, .use w, rfl⟩
  | skip => exact ⟨[], .skip _, rfl⟩
  | @rep cc lo hi p j h1 h2 h3 =>
    refine ⟨[], ?_, rfl⟩
    rw [show p + j - k = p - k + j by omega]
    refine .rep h1 h2 fun i hi => ?_
    obtain ⟨c, hc, hm⟩ := h3 i hi
    refine ⟨c, ?_, hm⟩
    rw [List.getElem?_drop, ← hc]; congr 1; omega
  | @grp n a p q w cs h ih =>
    obtain ⟨d, w', rfl⟩ := ih hn hk
    refine ⟨(n, p - k, q - k) :: d, .grp w', ?_⟩
    have := way_le h
    simp only [shiftCaps, List.map_cons]
    rw [Nat.sub_add_cancel hk, Nat.sub_add_cancel (by omega)]
  | bos => exact hn.elim
  | @eos p h =>
    refine ⟨[], .eos ?_, rfl⟩
    rw [List.length_drop, List.getElem?_drop]
    rcases h with h | ⟨h, h'⟩
    · exact .inl (by omega)
    · refine .inr ⟨by omega, ?_⟩
      rw [← h']; congr 1; omega

theorem noWay_shift {s : PyStr} {r : RE} (hn : NoCaret r) {k : Nat} (hk : k ≤ s.length) :
    NoWay (s.drop k) r 0 ↔ NoWay s r k := by
  constructor
  · intro h w q cs hw
    obtain ⟨d, hd, _⟩ := way_unshift hn hw (Nat.le_refl k)
    rw [Nat.sub_self] at hd
    exact h _ _ _ hd
  · intro h w q cs hw
    have := way_shift hn hw hk
    rw [Nat.zero_add] at this
    exact h _ _ _ this

theorem firstWay_shift {s : PyStr} {r : RE} (hn : NoCaret r) {k : Nat} (hk : k ≤ s.length) {q : Nat}
    {cs : Caps} (h : FirstWay (s.drop k) r 0 q cs) : FirstWay s r k (q + k) (shiftCaps k cs) := by
  obtain ⟨w, hw, hp⟩ := h
  refine ⟨w, by simpa using way_shift hn hw hk, fun v t ds hv => ?_⟩
  obtain ⟨d, hd, _⟩ := way_unshift hn hv (Nat.le_refl k)
  rw [Nat.sub_self] at hd
  exact hp _ _ _ hd

theorem firstWay_unshift {s : PyStr} {r : RE} (hn : NoCaret r) {k : Nat} (hk : k ≤ s.length) {q : Nat}
    {cs : Caps} (h : FirstWay s r k q cs) :
    ∃ ds, FirstWay (s.drop k) r 0 (q - k) ds ∧ cs = shiftCaps k ds := by
  obtain ⟨w, hw, hp⟩ := h
  obtain ⟨d, hd, rfl⟩ := way_unshift hn hw (Nat.le_refl k)
  rw [Nat.sub_self] at hd
  refine ⟨d, ⟨w, hd, fun v t ds hv => ?_⟩, rfl⟩
  exact hp _ _ _ (by simpa using way_shift hn hv hk)

theorem captured_shift {s : PyStr} {cs : Caps} {k : Nat} {n : Cap} {x : PyStr} :
    Captured (s.drop k) cs n x ↔ Captured s (shiftCaps k cs) n x := by
  constructor
  · rintro ⟨l, a, b, l', rfl, hl, rfl⟩
    refine ⟨shiftCaps k l, a + k, b + k, shiftCaps k l', by simp [shiftCaps], ?_, ?_⟩
    · intro c hc
      simp only [shiftCaps, List.mem_map] at hc
      obtain ⟨d, hd, rfl⟩ := hc
      exact hl d hd
    · rw [List.drop_drop, Nat.add_comm a k]; congr 1; omega
  · rintro ⟨l, a, b, l', h, hl, rfl⟩
    rw [shiftCaps, List.map_eq_append_iff] at h
    obtain ⟨l1, l2, rfl, rfl, h⟩ := h
    rw [List.map_eq_cons_iff] at h
    obtain ⟨⟨c, a', b'⟩, l3, rfl, h, rfl⟩ := h
    simp only [Prod.mk.injEq] at h
    obtain ⟨rfl, rfl, rfl⟩ := h
    refine ⟨l1, a', b', l3, rfl, ?_, ?_⟩
    · intro d hd
      exact hl (d.1, d.2.1 + k, d.2.2 + k) (List.mem_map.2 ⟨d, hd, rfl⟩)
    · rw [List.drop_drop, Nat.add_comm k a']; congr 1; omega

/-! ### `search` -/

theorem search_some {r : RE} {s : PyStr} {m : Match} (h : r.search s = some m) :
    ∃ k, k ≤ s.length ∧ r.match (s.drop k) = some m ∧ ∀ j < k, r.match (s.drop j) = none := by
  induction s with
  | nil => exact ⟨0, by simp, by simpa [RE.search] using h, by omega⟩
  | cons c t ih =>
    rw [RE.search] at h
    cases hm : r.match (c :: t) with
    | some m' =>
      rw [hm] at h
      simp only [Option.some.injEq] at h
      subst h
      exact ⟨0, by simp, by simpa using hm, by omega⟩
    | none =>
      rw [hm] at h
      obtain ⟨k, hk, h1, h2⟩ := ih h
      refine ⟨k + 1, by simp; omega, by simpa using h1, fun j hj => ?_⟩
      cases j with
      | zero => simpa using hm
      | succ j => simpa using h2 j (by omega)

theorem search_none {r : RE} {s : PyStr} :
    r.search s = none ↔ ∀ k ≤ s.length, r.match (s.drop k) = none := by
  induction s with
  | nil => simp [RE.search]
  | cons c t ih =>
    rw [RE.search]
    cases hm : r.match (c :: t) with
    | some m' =>
      simp only [reduceCtorEq, false_iff]
      intro h
      have := h 0 (by simp)
      rw [List.drop_zero, hm] at this; simp at this
    | none =>
      simp only [ih]
      constructor
      · intro h k hk
        cases k with
        | zero => simpa using hm
        | succ k => simpa using h k (by simp at hk; omega)
      · intro h k hk
        simpa using h (k + 1) (by simp; omega)

theorem search_iff {r : RE} (hn : NoCaret r) {s : PyStr} {m : Match} :
    r.search s = some m ↔ ∃ k, k ≤ s.length ∧ (∀ j < k, NoWay s r j) ∧ m.string = s.drop k ∧
      FirstWay s r k (m.stop + k) (shiftCaps k m.caps) := by
  constructor
  · intro h
    obtain ⟨k, hk, h1, h2⟩ := search_some h
    obtain ⟨hs, ht⟩ := match_iff.1 h1
    exact ⟨k, hk, fun j hj => (noWay_shift hn (by omega)).1 (match_none_iff.1 (h2 j hj)), hs,
      firstWay_shift hn hk ht⟩
  · rintro ⟨k, hk, h1, h2, h3⟩
    cases h : r.search s with
    | none =>
      have := match_none_iff.1 (search_none.1 h k hk)
      obtain ⟨w, hw, _⟩ := h3
      exact absurd hw ((noWay_shift hn hk).1 this _ _ _)
    | some m' =>
      obtain ⟨k', hk', h1', h2'⟩ := search_some h
      obtain ⟨hs', ht'⟩ := match_iff.1 h1'
      have hkk : k = k' := by
        rcases Nat.lt_trichotomy k k' with hlt | heq | hgt
        · have := (noWay_shift hn hk).1 (match_none_iff.1 (h2' k hlt))
          obtain ⟨w, hw, _⟩ := h3
          exact absurd hw (this _ _ _)
        · exact heq
        · obtain ⟨w, hw, _⟩ := firstWay_shift hn hk' ht'
          exact absurd hw (h1 k' hgt _ _ _)
      subst hkk
      obtain ⟨e1, e2⟩ := firstWay_det h3 (firstWay_shift hn hk ht')
      obtain ⟨ms, me, mc⟩ := m
      obtain ⟨ms', me', mc'⟩ := m'
      simp only at *
      subst h2 hs'
      obtain rfl : me = me' := by omega
      have : mc = mc' := by
        have inj : Function.Injective (shiftCaps k) := by
          intro a b hab
          refine List.map_inj_right ?_ |>.1 hab
          intro x y hxy
          simp only [Prod.mk.injEq] at hxy
          obtain ⟨h1, h2, h3⟩ := hxy
          exact Prod.ext h1 (Prod.ext (by omega) (by omega))
        exact inj e2
      rw [this]

/-! ### `sub` -/

/-- The number of characters that a pattern takes at least. -/
def RE.least : RE → Nat
  | .eps | .opt _ | .bos | .eos => 0
  | .chr _ => 1
  | .seq a b => a.least + b.least
  | .alt a b => min a.least b.least
  | .rep _ lo _ => lo
  | .grp _ a => a.least

theorem way_least {s : PyStr} {r : RE} {p q : Nat} {w : List Nat} {cs : Caps}
    (h : Way s r p w q cs) : p + r.least ≤ q := by
  induction h with
  | seq _ _ ih1 ih2 => simp only [RE.least]; omega
  | use h ih => have := way_le h; simp only [RE.least]; omega
  | left _ ih => simp only [RE.least]; omega
  | right _ ih => simp only [RE.least]; omega
  | grp _ ih => simpa only [RE.least] using ih
  | _ => simp only [RE.least]; omega

theorem nonEmpty_of_least {r : RE} (h : 0 < r.least) : NonEmpty r := by
  intro s p w cs hw
  have := way_least hw
  omega

theorem subGo_step {r : RE} (hn : NoCaret r) {s : PyStr} {repl : PyStr} {n : Option Nat} :
    ∀ {d p k : Nat}, k - p = d → p ≤ k → k ≤ s.length → (∀ j, p ≤ j → j < k → NoWay s r j) →
      r.subGo repl n 0 (s.drop p) = (s.drop p).take (k - p) ++ r.subGo repl n 0 (s.drop k) := by
  intro d
  induction d with
  | zero => intro p k h1 h2 _ _; obtain rfl : p = k := by omega
            simp
  | succ d ih =>
    intro p k h1 h2 h3 h4
    have hp : p < s.length := by omega
    have hm : r.match (s.drop p) = none :=
      match_none_iff.2 ((noWay_shift hn (by omega)).2 (h4 p (by omega) (by omega)))
    rw [List.drop_eq_getElem_cons hp] at hm ⊢
    rw [RE.subGo_none hm, ih (p := p + 1) (k := k) (by omega) (by omega) h3
      (fun j hj hj' => h4 j (by omega) hj')]
    rw [show k - p = (k - (p + 1)) + 1 by omega, List.take_succ_cons]
    simp

theorem substituted_sub {r : RE} (hn : NoCaret r) (hne : NonEmpty r) {s repl : PyStr}
    {n : Option Nat} {p : Nat} {out : PyStr} (hp : p ≤ s.length) (h : Substituted s r repl n p out) :
    out = r.subGo repl n 0 (s.drop p) := by
  induction h with
  | stop => rw [RE.subGo_zero]
  | @rest n p h =>
    symm
    apply RE.subGo_absent
    intro i hi
    rw [List.length_drop] at hi
    rw [List.drop_drop]
    exact match_none_iff.2 ((noWay_shift hn (by omega)).2 (h _ (by omega) (by omega)))
  | @next n p k q cs out h0 h1 h2 h3 h4 ih =>
    have hk : k ≤ s.length := by
      obtain ⟨w, hw, _⟩ := h3
      cases Nat.lt_or_ge s.length k with
      | inr h => exact h
      | inl h =>
        exfalso
        have hq : q = k := way_beyond hw h
        subst hq
        exact hne _ _ _ _ hw
    obtain ⟨ds, ht, _⟩ := firstWay_unshift hn hk h3
    have hm : r.match (s.drop k) = some ⟨s.drop k, q - k, ds⟩ := match_iff.2 ⟨rfl, ht⟩
    have hq : k < q := by
      obtain ⟨w, hw, _⟩ := h3
      have := way_le hw
      rcases Nat.lt_or_eq_of_le this with h | h
      · exact h
      · subst h; exact absurd hw (hne _ _ _ _)
    have hql : q ≤ s.length := by
      obtain ⟨w, hw, _⟩ := h3
      exact way_length hw hk
    rw [subGo_step hn rfl h1 hk h2, List.append_assoc, RE.subGo_some hm (by simp; omega) h0
      (by intro e; have := congrArg List.length e; simp at this; omega),
      ih hql, List.drop_drop, show k + (q - k) = q by omega]

theorem sub_substituted {r : RE} (hne : NonEmpty r) (s repl : PyStr) :
    ∀ (d : Nat) (n : Option Nat) (p : Nat), s.length - p = d → p ≤ s.length →
      ∃ out, Substituted s r repl n p out := by
  intro d
  induction d using Nat.strongRecOn with
  | _ d ih =>
    intro n p hd hp
    by_cases h0 : n = some 0
    · subst h0; exact ⟨_, .stop p⟩
    · by_cases hall : ∀ k, p ≤ k → k ≤ s.length → NoWay s r k
      · exact ⟨_, .rest hall⟩
      · have hex : ∃ k, p ≤ k ∧ k ≤ s.length ∧ ¬ NoWay s r k := by
          apply Classical.byContradiction
          intro h
          exact hall fun k h1 h2 => Classical.byContradiction fun h3 => h ⟨k, h1, h2, h3⟩
        obtain ⟨k, hk1, hk2, hk3, hk4⟩ : ∃ k, p ≤ k ∧ k ≤ s.length ∧ ¬ NoWay s r k ∧
            ∀ j, p ≤ j → j < k → NoWay s r j := by
          obtain ⟨k, hk⟩ := hex
          induction k using Nat.strongRecOn with
          | _ k ihk =>
            by_cases hj : ∃ j, p ≤ j ∧ j < k ∧ ¬ NoWay s r j
            · obtain ⟨j, h1, h2, h3⟩ := hj
              exact ihk j h2 ⟨h1, by omega, h3⟩
            · exact ⟨k, hk.1, hk.2.1, hk.2.2, fun j h1 h2 =>
                Classical.byContradiction fun h3 => hj ⟨j, h1, h2, h3⟩⟩
        rcases firstWay_or_none s r k with ⟨q, cs, ht⟩ | h
        · obtain ⟨w, hw, hw'⟩ := ht
          have hle := way_le hw
          have hql := way_length hw hk2
          have hlt : k < q := by
            rcases Nat.lt_or_eq_of_le hle with h | h
            · exact h
            · subst h; exact absurd hw (hne _ _ _ _)
          obtain ⟨out, ho⟩ := ih (s.length - q) (by omega) (n.map (· - 1)) q rfl hql
          exact ⟨_, .next h0 hk1 hk4 ⟨w, hw, hw'⟩ ho⟩
        · exact absurd h hk3

theorem substituted_iff {r : RE} (hn : NoCaret r) (hne : NonEmpty r) {s repl : PyStr}
    {n : Option Nat} {p : Nat} {out : PyStr} (hp : p ≤ s.length) :
    Substituted s r repl n p out ↔ out = r.subGo repl n 0 (s.drop p) := by
  constructor
  · exact substituted_sub hn hne hp
  · rintro rfl
    obtain ⟨out, ho⟩ := sub_substituted hne s repl _ n p rfl hp
    rw [← substituted_sub hn hne hp ho]; exact ho

end Verif
