import Verif.Lemmas.Apart
import Verif.Spec.Ambiguity

/-
Patterns that match no text in common, by comparing their paths pairwise. Unlike in `Apart`, the paths
need not end at the end of the text.
-/

namespace Verif
open Spec

/-- No text that follows the one path follows the other. The flags say whether the path ends at the end
of the text. -/
def clash : List CC → Bool → List CC → Bool → Bool
  | [], _, [], _ => false
  | [], e, _ :: _, _ => e
  | _ :: _, _, [], e => e
  | a :: as, e, b :: bs, f =>
    CC.test a b == some false || (CC.test b a == some false || clash as e bs f)

theorem clash_sound {a b : List CC} {e f : Bool} (h : clash a e b f = true) {s : PyStr}
    (ha : HasShape a (s.take a.length)) (he : e = true → s.length = a.length)
    (hb : HasShape b (s.take b.length)) (hf : f = true → s.length = b.length) : False := by
  induction a generalizing b s with
  | nil =>
    cases b with
    | nil => cases h
    | cons k ks =>
      have := he h
      obtain ⟨c, t, e', -, -⟩ := hb
      simp only [List.length_nil, List.length_eq_zero_iff] at this
      subst this
      simp at e'
  | cons k ks ih =>
    cases b with
    | nil =>
      have := hf h
      obtain ⟨c, t, e', -, -⟩ := ha
      simp only [List.length_nil, List.length_eq_zero_iff] at this
      subst this
      simp at e'
    | cons q qs =>
      obtain ⟨c, t, e1, hc, ht⟩ := ha
      obtain ⟨c', t', e2, hc', ht'⟩ := hb
      cases s with
      | nil => simp at e1
      | cons x s =>
        simp only [List.length_cons, List.take_succ_cons, List.cons.injEq] at e1 e2
        obtain ⟨rfl, rfl⟩ := e1
        obtain ⟨rfl, rfl⟩ := e2
        simp only [clash, Bool.or_eq_true, beq_iff_eq] at h
        rcases h with h | h | h
        · rw [CC.test_sound h hc] at hc'; cases hc'
        · rw [CC.test_sound h hc'] at hc; cases hc
        · exact ih h ht (fun h => by simpa using he h) ht' (fun h => by simpa using hf h)

/-- The patterns match no text in common. -/
def RE.clashes (r q : RE) : Bool :=
  (r.paths (0, [])).isSome && ((q.paths (0, [])).isSome && r.paths0.all fun x => q.paths0.all fun y =>
    clash (pathCls x.1) (endsWithEos x.1) (pathCls y.1) (endsWithEos y.1))

theorem RE.clashes_sound {r q : RE} (h : r.clashes q = true) {s : PyStr} {m m' : Match}
    (hm : r.match s = some m) (hq : q.match s = some m') (hn : 10 ∉ s) : False := by
  simp only [RE.clashes, Bool.and_eq_true] at h
  obtain ⟨hr, hq', h⟩ := h
  obtain ⟨x, hx, -, -, -, fx⟩ := RE.match_path hr hm
  obtain ⟨y, hy, -, -, -, fy⟩ := RE.match_path hq' hq
  have key : ∀ {z : List Step}, Follows s 0 z →
      HasShape (pathCls z) (s.take (pathCls z).length) ∧
        (endsWithEos z = true → s.length = (pathCls z).length) := by
    intro z fz
    refine ⟨?_, fun he => (fz.whole' he hn).length⟩
    have := fz.shape
    rwa [List.drop_zero, ← pathCls_length] at this
  have kx := key fx
  have ky := key fy
  exact clash_sound (List.all_eq_true.1 (List.all_eq_true.1 h x hx) y hy) kx.1 kx.2 ky.1 ky.2

/-- No two kinds of the list share a word, except those of `but`. -/
def apartIn {κ : Type} [DecidableEq κ] (p : κ → RE) (but : List (κ × κ)) : List κ → Bool
  | [] => true
  | k :: ks => (ks.all fun k' => but.contains (k, k') ||
      ((p k).apart (p k') [] || (p k).clashes (p k'))) && apartIn p but ks

theorem apartIn_sound {κ : Type} [DecidableEq κ] {p : κ → RE} {but : List (κ × κ)} {l : List κ}
    (h : apartIn p but l = true) {k k' : κ} (hk : k ∈ l) (hk' : k' ∈ l) {w : PyStr}
    (hw : Admits (p k) w) (hw' : Admits (p k') w) (hn : 10 ∉ w) :
    k = k' ∨ (k, k') ∈ but ∨ (k', k) ∈ but := by
  have one : ∀ {a b : κ}, Admits (p a) w → Admits (p b) w →
      (but.contains (a, b) || ((p a).apart (p b) [] || (p a).clashes (p b))) = true → (a, b) ∈ but := by
    rintro a b ⟨m, hm⟩ ⟨m', hm'⟩ h
    simp only [Bool.or_eq_true, List.contains_iff_mem] at h
    rcases h with h | h | h
    · exact h
    · rcases RE.apart_sound h hm hn with ⟨ks, hk, -⟩ | h
      · cases hk
      · rw [h] at hm'; cases hm'
    · exact (RE.clashes_sound h hm hm' hn).elim
  induction l with
  | nil => cases hk
  | cons a l ih =>
    simp only [apartIn, Bool.and_eq_true, List.all_eq_true] at h
    rcases List.mem_cons.1 hk with e | h1 <;> rcases List.mem_cons.1 hk' with e' | h2
    · exact .inl (e.trans e'.symm)
    · subst e; exact .inr (.inl (one hw hw' (h.1 _ h2)))
    · subst e'; exact .inr (.inr (one hw' hw (h.1 _ h1)))
    · exact ih h.2 h1 h2

/-- A pattern accepts every text of the shapes of another that are singled out. -/
def RE.covers (r q : RE) (c : List CC → Bool) : Bool :=
  q.closed && q.paths0.all fun x => !c (pathCls x.1) || ((r.matchA (pathCls x.1)).any Option.isSome)

theorem RE.covers_sound {r q : RE} {c : List CC → Bool} (h : r.covers q c = true) {s : PyStr}
    (hs : Admits q s) (hn : 10 ∉ s) (hc : ∀ ks, HasShape ks s → c ks = true) : Admits r s := by
  simp only [RE.covers, Bool.and_eq_true] at h
  obtain ⟨m, hm⟩ := hs
  obtain ⟨x, hx, -, -, hsh, -, -⟩ := RE.match_whole h.1 hm hn
  have hx' := List.all_eq_true.1 h.2 x hx
  rw [hc _ hsh] at hx'
  simp only [Bool.not_true, Bool.false_or, Option.any_eq_true] at hx'
  obtain ⟨o, ho, hi⟩ := hx'
  obtain ⟨⟨n, cs⟩, rfl⟩ := Option.isSome_iff_exists.1 hi
  exact ⟨_, RE.matchA_some hsh ho⟩

theorem Admits.of_shape {r : RE} {ks : List CC} {s : PyStr} (hs : HasShape ks s)
    (h : (r.matchA ks).any Option.isSome = true) : Admits r s := by
  simp only [Option.any_eq_true] at h
  obtain ⟨o, ho, hi⟩ := h
  obtain ⟨⟨n, cs⟩, rfl⟩ := Option.isSome_iff_exists.1 hi
  exact ⟨_, RE.matchA_some hs ho⟩

/-- The texts that both patterns accept, when those of the first are known to be few. -/
theorem Admits.both {r q : RE} {but : List (List CC)} (h : r.apart q but = true) {s : PyStr}
    (hr : Admits r s) (hq : Admits q s) (hn : 10 ∉ s) : ∃ ks ∈ but, HasShape ks s := by
  obtain ⟨m, hm⟩ := hr
  obtain ⟨m', hm'⟩ := hq
  rcases RE.apart_sound h hm hn with h | h
  · exact h
  · rw [h] at hm'; cases hm'

end Verif
