import Verif.Lemmas.Cut
import Verif.Lemmas.Sections
import Verif.Spec.Split

/-
`split_sentence` for any keywords and any limit.
-/

namespace Verif
open Spec

theorem Spec.Keyword.plain {kw : PyStr} (h : Keyword kw) : Plain kw := by
  refine ⟨h.1, fun c hc => ?_⟩
  have := h.2 c hc
  refine ⟨?_, by omega⟩
  have hs : ∀ c, c < 91 → 48 ≤ c → isSpace c = false := by decide +kernel
  exact hs c (by omega) (by omega)

/-! ### One substitution -/

theorem Spec.Replaced.refl (old new : PyStr) (s : PyStr) : Replaced old new 0 s s := by
  induction s with
  | nil => exact .done
  | cons c t ih => exact .keep c ih

/-- Substituting a literal replaces some of its occurrences, at most as many as allowed. -/
theorem replaced_subGo {lit repl : PyStr} (hl : lit ≠ []) (n : Option Nat) (s : PyStr) :
    ∃ k, Replaced lit repl k s ((RE.ofLit lit).subGo repl n 0 s) ∧ ∀ m, n = some m → k ≤ m := by
  generalize hn : s.length = len
  induction len using Nat.strongRecOn generalizing s n with
  | ind len ih =>
    cases s with
    | nil => rw [RE.subGo_nil]; exact ⟨0, .done, fun _ _ => Nat.zero_le _⟩
    | cons c t =>
      by_cases h0 : n = some 0
      · subst h0
        rw [RE.subGo_zero]
        exact ⟨0, .refl .., fun _ _ => Nat.zero_le _⟩
      have hm := RE.match_ofLit lit (c :: t)
      by_cases hp : lit.isPrefixOf (c :: t) = true
      · rw [if_pos hp] at hm
        have hlen : lit.length ≠ 0 := by simpa using hl
        rw [RE.subGo_some hm hlen h0 (by simp)]
        obtain ⟨rest, hr⟩ := List.isPrefixOf_iff_prefix.1 hp
        simp only
        rw [← hr, List.drop_left]
        have hlt : rest.length < len := by
          rw [← hn, ← hr, List.length_append]; omega
        obtain ⟨k, h1, h2⟩ := ih _ hlt (n.map (· - 1)) rest rfl
        refine ⟨k + 1, .swap h1, ?_⟩
        intro m hm'
        subst hm'
        have := h2 (m - 1) rfl
        have : m ≠ 0 := fun h => h0 (by rw [h])
        omega
      · rw [if_neg hp] at hm
        rw [RE.subGo_none hm]
        obtain ⟨k, h1, h2⟩ := ih _ (by simp at hn; omega) n t rfl
        exact ⟨k, .keep c h1, h2⟩

theorem replaced_sub {lit repl : PyStr} (hl : lit ≠ []) (count : Nat) (s : PyStr) :
    ∃ k, Replaced lit repl k s ((RE.ofLit lit).sub repl s count) ∧ (count ≠ 0 → k ≤ count) := by
  obtain ⟨k, h1, h2⟩ := replaced_subGo (repl := repl) hl (if count = 0 then none else some count) s
  refine ⟨k, h1, fun hc => ?_⟩
  exact h2 count (by rw [if_neg hc])

/-- What is the same for the old and the new text is the same for the whole. -/
theorem Spec.Replaced.image {old new : PyStr} {f : Nat → List Nat} (h : old.flatMap f = new.flatMap f)
    {n : Nat} {s y : PyStr} (hr : Replaced old new n s y) : y.flatMap f = s.flatMap f := by
  induction hr with
  | done => rfl
  | keep c _ ih => simp [ih]
  | swap _ ih => simp [ih, h]

theorem Spec.Replaced.bars {old new : PyStr} (h : new.count 124 = old.count 124 + 1)
    {n : Nat} {s y : PyStr} (hr : Replaced old new n s y) : y.count 124 = s.count 124 + n := by
  induction hr with
  | done => rfl
  | keep c _ ih => simp only [List.count_cons, ih]; omega
  | swap _ ih => simp only [List.count_append, ih, h]; omega

/-! ### The parts -/

/-- A bar becomes a blank. -/
def barBlank (c : Nat) : List Nat := if c = 124 then [32] else [c]

/-- A bar is left out. -/
def barNone (c : Nat) : List Nat := if c = 124 then [] else [c]

theorem join_splitC_bar (x : PyStr) : join [32] (splitC 124 x) = x.flatMap barBlank := by
  induction x with
  | nil => rfl
  | cons c t ih =>
    by_cases hc : c = 124
    · subst hc
      rw [splitC_sep, join_cons_ne (splitC_ne _ _), ih]
      simp [barBlank]
    · obtain ⟨w, ws, h1, h2⟩ := splitC_cons (t := t) hc
      rw [h2, List.flatMap_cons, ← ih, h1]
      cases ws with
      | nil => simp [join, barBlank, hc]
      | cons v vs =>
        have hv : v :: vs ≠ [] := by simp
        rw [join_cons_ne hv, join_cons_ne hv]
        simp [barBlank, hc]

theorem flatten_splitC_bar (x : PyStr) : (splitC 124 x).flatten = x.flatMap barNone := by
  induction x with
  | nil => rfl
  | cons c t ih =>
    by_cases hc : c = 124
    · subst hc
      rw [splitC_sep]
      simp [barNone, ih]
    · obtain ⟨w, ws, h1, h2⟩ := splitC_cons (t := t) hc
      rw [h2, List.flatMap_cons, ← ih, h1]
      simp [barNone, hc]

theorem length_splitC_bar (x : PyStr) : (splitC 124 x).length = x.count 124 + 1 := by
  induction x with
  | nil => rfl
  | cons c t ih =>
    by_cases hc : c = 124
    · subst hc
      rw [splitC_sep, List.length_cons, ih]
      simp
    · obtain ⟨w, ws, h1, h2⟩ := splitC_cons (t := t) hc
      rw [h1] at ih
      rw [h2, List.count_cons]
      simpa [hc] using ih

theorem splitC_word_prefix {kw : PyStr} (h : 124 ∉ kw) (r : PyStr) :
    ∃ u ws, splitC 124 (kw ++ r) = (kw ++ u) :: ws := by
  induction kw with
  | nil =>
    obtain ⟨u, ws, h⟩ := List.exists_cons_of_ne_nil (splitC_ne 124 r)
    exact ⟨u, ws, h⟩
  | cons c k ih =>
    simp only [List.mem_cons, not_or] at h
    obtain ⟨u, ws, e⟩ := ih h.2
    obtain ⟨w, vs, h1, h2⟩ := splitC_cons (t := k ++ r) (fun e => h.1 e.symm : c ≠ 124)
    rw [e] at h1
    cases h1
    exact ⟨u, ws, h2⟩

theorem flatMap_unbarred {f : Nat → List Nat} (hf : ∀ c, c ≠ 124 → f c = [c]) {s : PyStr} (h : 124 ∉ s) :
    s.flatMap f = s := by
  induction s with
  | nil => rfl
  | cons c t ih =>
    simp only [List.mem_cons, not_or] at h
    rw [List.flatMap_cons, ih h.2, hf c (fun e => h.1 e.symm)]
    rfl

/-! ### All keywords -/

/-- The text that `split_sentence` splits at the bars. -/
def marked (add : PyStr → PyStr) (count : Nat) (kws : List PyStr) (s : PyStr) : PyStr :=
  kws.foldl (fun s kw => (RE.ofLit (add kw)).sub (124 :: lstrip (add kw)) s count) s

theorem marked_image {add : PyStr → PyStr} {f : Nat → List Nat} {count : Nat} {kws : List PyStr}
    (hne : ∀ kw ∈ kws, add kw ≠ [])
    (h : ∀ kw ∈ kws, (add kw).flatMap f = (124 :: lstrip (add kw)).flatMap f) (s : PyStr) :
    (marked add count kws s).flatMap f = s.flatMap f := by
  unfold marked
  induction kws generalizing s with
  | nil => rfl
  | cons kw kws ih =>
    simp only [List.foldl_cons]
    rw [ih (fun k hk => hne k (by simp [hk])) (fun k hk => h k (by simp [hk]))]
    obtain ⟨k, h1, -⟩ := replaced_sub (repl := 124 :: lstrip (add kw)) (hne kw (by simp)) count s
    exact h1.image (h kw (by simp))

theorem marked_bars {add : PyStr → PyStr} {count : Nat} {kws : List PyStr}
    (hne : ∀ kw ∈ kws, add kw ≠ []) (hb : ∀ kw ∈ kws, 124 ∉ add kw) (hc : count ≠ 0) (s : PyStr) :
    (marked add count kws s).count 124 ≤ s.count 124 + count * kws.length := by
  unfold marked
  induction kws generalizing s with
  | nil => simp
  | cons kw kws ih =>
    simp only [List.foldl_cons]
    refine Nat.le_trans (ih (fun k hk => hne k (by simp [hk])) (fun k hk => hb k (by simp [hk])) _) ?_
    obtain ⟨k, h1, h2⟩ := replaced_sub (repl := 124 :: lstrip (add kw)) (hne kw (by simp)) count s
    have hk := hb kw (by simp)
    have hl : 124 ∉ lstrip (add kw) := fun hm => hk ((List.dropWhile_sublist _).mem hm)
    have := h1.bars (by rw [List.count_cons_self, List.count_eq_zero_of_not_mem hl, List.count_eq_zero_of_not_mem hk])
    have h2 := h2 hc
    rw [this, List.length_cons, Nat.mul_succ]
    omega

/-! ### Where the parts begin -/

/-- The same text, but for blanks that have become bars. -/
inductive Barred : PyStr → PyStr → Prop
  | done : Barred [] []
  | keep {s y} (c : Nat) (h : Barred s y) : Barred (c :: s) (c :: y)
  | bar {s y} (h : Barred s y) : Barred (32 :: s) (124 :: y)

theorem Barred.refl (s : PyStr) : Barred s s := by
  induction s with
  | nil => exact .done
  | cons c t ih => exact .keep c ih

theorem Barred.append {s y : PyStr} (h : Barred s y) (a : PyStr) : Barred (a ++ s) (a ++ y) := by
  induction a with
  | nil => exact h
  | cons c t ih => exact .keep c ih

theorem Barred.prefix {kw s y : PyStr} (hk : 32 ∉ kw) (h : Barred s y) (hp : kw <+: s) : kw <+: y := by
  induction kw generalizing s y with
  | nil => exact List.nil_prefix
  | cons a k ih =>
    simp only [List.mem_cons, not_or] at hk
    obtain ⟨r, rfl⟩ := hp
    cases h with
    | keep c h => exact List.cons_prefix_cons.2 ⟨rfl, ih hk.2 h ⟨r, rfl⟩⟩
    | bar h => exact absurd rfl hk.1

/-- Every bar is followed by a keyword. -/
def BarsOpen (kws : List PyStr) (s : PyStr) : Prop := ∀ a b, s = a ++ 124 :: b → Opens kws b

theorem Spec.Replaced.barred {kw tail : PyStr} {n : Nat} {s y : PyStr}
    (h : Replaced (32 :: (kw ++ tail)) (124 :: (kw ++ tail)) n s y) : Barred s y := by
  induction h with
  | done => exact .done
  | keep c _ ih => exact .keep c ih
  | swap _ ih => exact .bar (ih.append _)

theorem Spec.Replaced.barsOpen {kw tail : PyStr} {kws : List PyStr} (hkws : ∀ kw ∈ kws, 32 ∉ kw)
    (hkw : kw ∈ kws) (hb : 124 ∉ kw ++ tail) {n : Nat} {s y : PyStr}
    (h : Replaced (32 :: (kw ++ tail)) (124 :: (kw ++ tail)) n s y) (hs : BarsOpen kws s) : BarsOpen kws y := by
  induction h with
  | done => exact hs
  | @keep n s y c h ih =>
    have ih := ih fun a b e => hs (c :: a) b (by rw [e]; rfl)
    intro a b e
    cases a with
    | nil =>
      simp only [List.nil_append, List.cons.injEq] at e
      obtain ⟨rfl, rfl⟩ := e
      obtain ⟨k, hk, hp⟩ := hs [] s rfl
      exact ⟨k, hk, h.barred.prefix (hkws k hk) hp⟩
    | cons d a =>
      simp only [List.cons_append, List.cons.injEq] at e
      exact ih a b e.2
  | @swap n s y h ih =>
    have ih := ih fun a b e => hs (32 :: (kw ++ tail) ++ a) b (by rw [e]; simp)
    intro a b e
    cases a with
    | nil =>
      simp only [List.nil_append, List.cons_append, List.cons.injEq, true_and] at e
      exact ⟨kw, hkw, by rw [← e, List.append_assoc]; exact List.prefix_append ..⟩
    | cons d a =>
      simp only [List.cons_append, List.cons.injEq] at e
      obtain ⟨-, e⟩ := e
      rcases List.append_eq_append_iff.1 e with ⟨c, rfl, e'⟩ | ⟨c, e', e''⟩
      · exact ih c b e'
      · cases c with
        | nil => exact ih [] b (by simpa using e''.symm)
        | cons d' c =>
          simp only [List.cons_append, List.cons.injEq] at e''
          exact absurd (by rw [e', ← e''.1]; simp) hb

theorem marked_open {tail : PyStr} {count : Nat} {kws : List PyStr} {add : PyStr → PyStr}
    (hadd : ∀ kw, add kw = 32 :: (kw ++ tail)) (ht : 124 ∉ tail) (hkws : ∀ kw ∈ kws, Plain kw)
    {all : List PyStr} (hall : ∀ kw ∈ all, Plain kw) (hsub : ∀ kw ∈ kws, kw ∈ all)
    {s : PyStr} (hs : BarsOpen all s) : BarsOpen all (marked add count kws s) := by
  unfold marked
  induction kws generalizing s with
  | nil => exact hs
  | cons kw kws ih =>
    simp only [List.foldl_cons]
    refine ih (fun k hk => hkws k (by simp [hk])) (fun k hk => hsub k (by simp [hk])) ?_
    have hk := hkws kw (by simp)
    have hl : lstrip (add kw) = kw ++ tail := by
      rw [hadd]
      unfold lstrip
      rw [List.dropWhile_cons, if_pos (by decide)]
      obtain ⟨c, t, rfl⟩ := List.exists_cons_of_ne_nil hk.1
      simp [(hk.2 c (by simp)).1]
    obtain ⟨k, h1, -⟩ := replaced_sub (lit := add kw) (repl := 124 :: lstrip (add kw)) (by rw [hadd]; simp) count s
    rw [hl] at h1 ⊢
    simp only [hadd] at h1 ⊢
    refine h1.barsOpen (fun k hk => (hall k hk).no_blank) (hsub kw (by simp)) ?_ hs
    simp only [List.mem_append, not_or]
    exact ⟨hk.no_bar, ht⟩

theorem splitC_opens {kws : List PyStr} (hkws : ∀ kw ∈ kws, 124 ∉ kw) {x : PyStr} (h : BarsOpen kws x) :
    ∀ w ∈ (splitC 124 x).tail, Opens kws w := by
  induction x with
  | nil => simp [splitC]
  | cons c t ih =>
    have iht := ih fun a b e => h (c :: a) b (by rw [e]; rfl)
    by_cases hc : c = 124
    · subst hc
      rw [splitC_sep, List.tail_cons]
      have h0 := h [] t rfl
      intro w hw
      cases hs : splitC 124 t with
      | nil => rw [hs] at hw; cases hw
      | cons v vs =>
        rw [hs] at hw iht
        rcases List.mem_cons.1 hw with rfl | hw
        · obtain ⟨kw, hk, hp⟩ := h0
          refine ⟨kw, hk, ?_⟩
          obtain ⟨r, rfl⟩ := hp
          obtain ⟨u, ws, he⟩ := splitC_word_prefix (hkws kw hk) r
          rw [hs] at he
          cases he
          exact ⟨u, rfl⟩
        · exact iht w hw
    · obtain ⟨w, ws, h1, h2⟩ := splitC_cons (t := t) hc
      rw [h1] at iht
      rw [h2]
      exact iht

end Verif
