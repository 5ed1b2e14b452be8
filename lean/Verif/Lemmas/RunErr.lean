import Verif.Lemmas.Attr
import Verif.Lemmas.Construct

/- Parsing that ends with an exception. -/

namespace Verif

variable {σ : Type}

/-- If the handler of a taken group always raises `e` on it and the handlers before it never raise,
then parsing raises `e`. -/
theorem Spec.Runs.fails {hs : List (Handler σ)} {c : List (PyStr × Nat)} {s : σ}
    {out : Except Exc σ} (hr : Spec.Runs hs c s out) (ho : Ordered c) {g : PyStr} {i : Nat} {e : Exc}
    (hg : (g, i) ∈ c)
    (hi : ∀ h m s, hs[i]? = some h → h.regexp.match g = some m → h.run m s = .error e)
    (hj : ∀ j h, j < i → hs[j]? = some h → ∀ m s, ∃ s', h.run m s = .ok s') :
    out = .error e := by
  induction hr with
  | nil => simp at hg
  | @fail g' j rest s h m e' h1 h2 h3 =>
    rcases List.mem_cons.1 hg with heq | hmem
    · cases heq
      rw [hi h m s h1 h2] at h3
      exact h3.symm
    · have hlt := (List.pairwise_cons.1 ho).1 _ hmem
      obtain ⟨s', hs'⟩ := hj j h hlt h1 m s
      rw [hs'] at h3
      cases h3
  | @step g' j rest s h m s1 out h1 h2 h3 _ ih =>
    rcases List.mem_cons.1 hg with heq | hmem
    · cases heq
      rw [hi h m s h1 h2] at h3
      cases h3
    · exact ih (List.pairwise_cons.1 ho).2 hmem

/-- The handler at the position of a taken group accepts it. -/
theorem decodes_match {hs : List (Handler σ)} {gs : List PyStr} {c : List (PyStr × Nat)}
    (hc : Spec.Decodes hs gs c) {g : PyStr} {i : Nat} (hg : (g, i) ∈ c) :
    ∃ h m, hs[i]? = some h ∧ h.regexp.match g = some m := by
  obtain ⟨asg, h1, h2, rfl⟩ := hc
  unfold Spec.consumed at hg
  simp only [List.mem_filterMap, Option.map_eq_some_iff, Prod.mk.injEq] at hg
  obtain ⟨⟨g', o⟩, hm, i', ho, rfl, rfl⟩ := hg
  obtain ⟨k, hk, he⟩ := List.mem_iff_getElem.1 hm
  rw [List.getElem_zip, Prod.mk.injEq] at he
  simp only [List.length_zip] at hk
  simp only at ho
  subst ho
  have := h2 k g' (some i') (by rw [← he.1]; exact List.getElem?_eq_getElem (by omega))
    (by rw [← he.2]; exact List.getElem?_eq_getElem (by omega))
  obtain ⟨h, e1, e2⟩ := this.2.1
  exact ⟨h, _, e1, (Option.some_get e2).symm⟩

/-- Parsing a section as a run over the decoded groups. -/
theorem parseSection_runs {hs : List (Handler σ)} {text : PyStr} {s : σ} {c : List (PyStr × Nat)}
    (hc : Spec.Decodes hs (splitC 32 text) c) :
    ∃ out un, Spec.Runs hs c s out ∧ Ordered c ∧
      parseSection hs text s = out.map fun s' => (s', un) := by
  obtain ⟨out, h1, h2⟩ := @parseSection_eq σ hs text s
  rw [(decodes_iff _ _ _).1 hc]
  exact ⟨out, _, h1, consumed_ordered, h2⟩

theorem Ordered.unique {c : List (PyStr × Nat)} (ho : Ordered c) {g g' : PyStr} {i : Nat}
    (h : (g, i) ∈ c) (h' : (g', i) ∈ c) : g = g' := by
  induction c with
  | nil => simp at h
  | cons x c ih =>
    obtain ⟨h1, h2⟩ := List.pairwise_cons.1 ho
    rcases List.mem_cons.1 h with rfl | hm <;> rcases List.mem_cons.1 h' with he | hm'
    · cases he; rfl
    · exact absurd (h1 _ hm') (Nat.lt_irrefl _)
    · subst he; exact absurd (h1 _ hm) (Nat.lt_irrefl _)
    · exact ih h2 hm hm'

/-- If the handlers before `i` commute with `F` and the handler at `i` gives the same with and
without `F`, then a run in which position `i` takes a group does not depend on `F`. -/
theorem Spec.Runs.absorb {hs : List (Handler σ)} {c : List (PyStr × Nat)} {s : σ}
    {out : Except Exc σ} (hr : Spec.Runs hs c s out) (ho : Ordered c) {g : PyStr} {i : Nat}
    (hg : (g, i) ∈ c) (F : σ → σ)
    (hi : ∀ h m s, hs[i]? = some h → h.run m (F s) = h.run m s)
    (hj : ∀ j h, j < i → hs[j]? = some h → ∀ m s, h.run m (F s) = (h.run m s).map F) :
    Spec.Runs hs c (F s) out := by
  induction hr with
  | nil => simp at hg
  | @fail g' j rest s h m e h1 h2 h3 =>
    refine .fail h1 h2 ?_
    rcases List.mem_cons.1 hg with heq | hmem
    · cases heq
      rw [hi h m s h1, h3]
    · have hlt := (List.pairwise_cons.1 ho).1 _ hmem
      rw [hj j h hlt h1, h3]; rfl
  | @step g' j rest s h m s1 out h1 h2 h3 h4 ih =>
    rcases List.mem_cons.1 hg with heq | hmem
    · cases heq
      exact .step h1 h2 ((hi h m s h1).trans h3) h4
    · have hlt := (List.pairwise_cons.1 ho).1 _ hmem
      refine .step h1 h2 ?_ (ih (List.pairwise_cons.1 ho).2 hmem)
      rw [hj j h hlt h1, h3]; rfl

theorem Spec.Runs.det {hs : List (Handler σ)} {c : List (PyStr × Nat)} {s : σ}
    {o o' : Except Exc σ} (h : Spec.Runs hs c s o) (h' : Spec.Runs hs c s o') : o = o' := by
  induction h generalizing o' with
  | nil => cases h'; rfl
  | fail h1 h2 h3 =>
    cases h' with
    | fail e1 e2 e3 => rw [h1] at e1; cases e1; rw [h2] at e2; cases e2; rw [h3] at e3; cases e3; rfl
    | step e1 e2 e3 => rw [h1] at e1; cases e1; rw [h2] at e2; cases e2; rw [h3] at e3; cases e3
  | step h1 h2 h3 h4 ih =>
    cases h' with
    | fail e1 e2 e3 => rw [h1] at e1; cases e1; rw [h2] at e2; cases e2; rw [h3] at e3; cases e3
    | step e1 e2 e3 e4 =>
      rw [h1] at e1; cases e1; rw [h2] at e2; cases e2; rw [h3] at e3; cases e3; exact ih e4

/-- Parsing does not depend on what is absorbed. -/
theorem parseSection_absorb {hs : List (Handler σ)} {text : PyStr} {s : σ}
    {c : List (PyStr × Nat)} (hc : Spec.Decodes hs (splitC 32 text) c) {g : PyStr} {i : Nat}
    (hg : (g, i) ∈ c) (F : σ → σ)
    (hi : ∀ h m s, hs[i]? = some h → h.run m (F s) = h.run m s)
    (hj : ∀ j h, j < i → hs[j]? = some h → ∀ m s, h.run m (F s) = (h.run m s).map F) :
    parseSection hs text (F s) = parseSection hs text s := by
  obtain ⟨o1, h1, e1⟩ := @parseSection_eq σ hs text s
  obtain ⟨o2, h2, e2⟩ := @parseSection_eq σ hs text (F s)
  rw [(decodes_iff _ _ _).1 hc] at hg
  rw [e1, e2, (h1.absorb consumed_ordered hg F hi hj).det h2]

end Verif
