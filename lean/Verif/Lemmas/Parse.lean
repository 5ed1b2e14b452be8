import Verif.Spec.Parse

/-
Lemmas about the parse loop.
-/

namespace Verif

variable {σ : Type}

/-- The position at or above `index` of the first handler that matches. -/
def firstFrom (hs : List (Handler σ)) (index : Nat) (g : PyStr) : Option Nat :=
  (tryHandlers (hs.drop index) g 0).map fun x => index + x.1 - 1

theorem tryHandlers_some {hs : List (Handler σ)} {g : PyStr} {c n : Nat} {m : Match} {h : Handler σ}
    (ht : tryHandlers hs g c = some (n, m, h)) :
    ∃ i, n = c + i + 1 ∧ hs[i]? = some h ∧ h.regexp.match g = some m ∧
      ∀ j h', j < i → hs[j]? = some h' → h'.regexp.match g = none := by
  induction hs generalizing c with
  | nil => simp [tryHandlers] at ht
  | cons x xs ih =>
    unfold tryHandlers at ht
    cases hx : x.regexp.match g with
    | some m' =>
      simp only [hx, Option.some.injEq, Prod.mk.injEq] at ht
      obtain ⟨rfl, rfl, rfl⟩ := ht
      exact ⟨0, rfl, rfl, hx, fun j h' hj => by omega⟩
    | none =>
      simp only [hx] at ht
      obtain ⟨i, h1, h2, h3, h4⟩ := ih ht
      refine ⟨i + 1, by omega, by simpa using h2, h3, fun j h' hj hj' => ?_⟩
      cases j with
      | zero => simp at hj'; rw [← hj']; exact hx
      | succ j => exact h4 j h' (by omega) (by simpa using hj')

theorem tryHandlers_none {hs : List (Handler σ)} {g : PyStr} {c : Nat} :
    tryHandlers hs g c = none ↔ ∀ h ∈ hs, h.regexp.match g = none := by
  induction hs generalizing c with
  | nil => simp [tryHandlers]
  | cons x xs ih =>
    unfold tryHandlers
    cases hx : x.regexp.match g with
    | some m' => simp [hx]
    | none => simp [hx, ih]

theorem tryHandlers_none_mono {hs : List (Handler σ)} {g : PyStr} {i j : Nat} (hij : i ≤ j)
    (h : tryHandlers (hs.drop i) g 0 = none) : tryHandlers (hs.drop j) g 0 = none := by
  rw [tryHandlers_none] at *
  intro x hx
  refine h x ?_
  rw [show j = i + (j - i) by omega, ← List.drop_drop] at hx
  exact List.mem_of_mem_drop hx

/-- The assignment the loop follows from position `index`. -/
def assign (hs : List (Handler σ)) : Nat → List PyStr → List (Option Nat)
  | _, [] => []
  | index, g :: gs =>
    match tryHandlers (hs.drop index) g 0 with
    | none => none :: assign hs index gs
    | some (n, _, _) => some (index + n - 1) :: assign hs (index + n) gs

theorem assign_length (hs : List (Handler σ)) (index : Nat) (gs : List PyStr) :
    (assign hs index gs).length = gs.length := by
  induction gs generalizing index with
  | nil => rfl
  | cons g gs ih =>
    unfold assign
    split <;> simp [ih]

/-- Generalised bound, starting from `b`. -/
def boundFrom (b : Nat) (asg : List (Option Nat)) : Nat :=
  asg.foldl (fun b o => match o with | some i => i + 1 | none => b) b

theorem boundFrom_zero (asg : List (Option Nat)) : boundFrom 0 asg = Spec.bound asg := by
  cases asg <;> rfl

theorem assign_first {hs : List (Handler σ)} {index : Nat} {gs : List PyStr} (k : Nat) (g : PyStr)
    (o : Option Nat) (hg : gs[k]? = some g)
    (ho : (assign hs index gs)[k]? = some o) :
    Spec.FirstAt hs (boundFrom index ((assign hs index gs).take k)) g o := by
  induction gs generalizing index k with
  | nil => simp at hg
  | cons g' gs ih =>
    cases k with
    | succ k =>
      simp only [List.getElem?_cons_succ] at hg
      unfold assign at ho ⊢
      cases ht : tryHandlers (hs.drop index) g' 0 with
      | none =>
        simp only [ht, List.getElem?_cons_succ] at ho
        simp only [List.take_succ_cons, boundFrom, List.foldl_cons]
        exact ih k hg ho
      | some x =>
        obtain ⟨n, m, h⟩ := x
        simp only [ht, List.getElem?_cons_succ] at ho
        simp only [List.take_succ_cons, boundFrom, List.foldl_cons]
        obtain ⟨i, h1, h2, h3, h4⟩ := tryHandlers_some ht
        rw [show index + n - 1 + 1 = index + n by omega]
        exact ih k hg ho
    | zero =>
      simp only [List.getElem?_cons_zero, Option.some.injEq] at hg
      subst hg
      unfold assign at ho
      simp only [List.take_zero, boundFrom, List.foldl_nil]
      cases ht : tryHandlers (hs.drop index) g' 0 with
      | none =>
        simp only [ht, List.getElem?_cons_zero, Option.some.injEq] at ho
        subst ho
        rintro j hj ⟨h, hh, hm⟩
        rw [tryHandlers_none] at ht
        have : h ∈ hs.drop index := by
          rw [List.mem_iff_getElem?]
          refine ⟨j - index, ?_⟩
          rw [List.getElem?_drop, show index + (j - index) = j by omega]
          exact hh
        simp [ht h this] at hm
      | some x =>
        obtain ⟨n, m, h⟩ := x
        simp only [ht, List.getElem?_cons_zero, Option.some.injEq] at ho
        subst ho
        obtain ⟨i, h1, h2, h3, h4⟩ := tryHandlers_some ht
        rw [List.getElem?_drop] at h2
        rw [show index + n - 1 = index + i by omega]
        refine ⟨by omega, ⟨h, h2, by simp [h3]⟩, ?_⟩
        rintro j hj1 hj2 ⟨h', hh', hm'⟩
        have := h4 (j - index) h' (by omega) (by
          rw [List.getElem?_drop, show index + (j - index) = j by omega]; exact hh')
        simp [this] at hm'

theorem assign_used {hs : List (Handler σ)} {index : Nat} {gs : List PyStr} :
    (∀ i ∈ Spec.used (assign hs index gs), index ≤ i ∧ i < hs.length) ∧
      (Spec.used (assign hs index gs)).Pairwise (· < ·) := by
  induction gs generalizing index with
  | nil => simp [assign, Spec.used]
  | cons g gs ih =>
    unfold assign
    cases ht : tryHandlers (hs.drop index) g 0 with
    | none => simpa [Spec.used] using ih
    | some x =>
      obtain ⟨n, m, h⟩ := x
      obtain ⟨i, h1, h2, h3, h4⟩ := tryHandlers_some ht
      rw [List.getElem?_drop] at h2
      have hl : index + i < hs.length := (List.getElem?_eq_some_iff.1 h2).1
      have ih := @ih (index + n)
      simp only [Spec.used, List.filterMap_cons, id_eq] at ih ⊢
      constructor
      · intro j hj
        rcases List.mem_cons.1 hj with rfl | hj
        · omega
        · have := ih.1 j hj; omega
      · refine List.pairwise_cons.2 ⟨fun j hj => ?_, ih.2⟩
        have := ih.1 j hj; omega

/-- The loop never confuses a consumed group with an equal one that was left over before. -/
theorem parseGo_eq {hs : List (Handler σ)} {gs : List PyStr} {index : Nat} {un : List PyStr} {s : σ}
    (hun : ∀ g ∈ un, tryHandlers (hs.drop index) g 0 = none) :
    ∃ out, Spec.Runs hs (Spec.consumed gs (assign hs index gs)) s out ∧
      parseGo hs gs index un s =
        out.map fun s' => (s', un ++ Spec.leftover gs (assign hs index gs)) := by
  induction gs generalizing index un s with
  | nil => exact ⟨.ok s, .nil s, by simp [parseGo, assign, Spec.leftover, Except.map]⟩
  | cons g gs ih =>
    unfold parseGo assign
    cases ht : tryHandlers (hs.drop index) g 0 with
    | none =>
      obtain ⟨out, h1, h2⟩ := @ih index (un ++ [g]) s (by
        intro g' hg'
        rcases List.mem_append.1 hg' with h | h
        · exact hun g' h
        · rw [List.mem_singleton.1 h]; exact ht)
      refine ⟨out, by simpa [Spec.consumed] using h1, ?_⟩
      simp only [h2, Spec.leftover, List.zip_cons_cons, List.filterMap_cons, Option.isNone_none,
        if_true, List.append_assoc, List.singleton_append]
    | some x =>
      obtain ⟨n, m, h⟩ := x
      obtain ⟨i, h1, h2, h3, h4⟩ := tryHandlers_some ht
      rw [List.getElem?_drop] at h2
      have hpos : index + n - 1 = index + i := by omega
      have hg : g ∉ un := fun hmem => by simp [hun g hmem] at ht
      have he : (un ++ [g]).erase g = un := by
        rw [List.erase_append_right _ hg]; simp
      cases hr : h.run m s with
      | error e =>
        refine ⟨.error e, ?_, by simp [hr, Except.map]⟩
        simp only [Spec.consumed, List.zip_cons_cons, List.filterMap_cons, Option.map_some, hpos]
        exact .fail h2 h3 hr
      | ok s' =>
        obtain ⟨out, hr1, hr2⟩ := @ih (index + n) un s' (fun g' hg' =>
          tryHandlers_none_mono (by omega) (hun g' hg'))
        refine ⟨out, ?_, ?_⟩
        · simp only [Spec.consumed, List.zip_cons_cons, List.filterMap_cons, Option.map_some, hpos]
          exact .step h2 h3 hr hr1
        · simp only [he, hr, hr2, Spec.leftover, List.zip_cons_cons, List.filterMap_cons,
            Option.isNone_some, Bool.false_eq_true, if_false]

theorem parseSection_eq {hs : List (Handler σ)} {text : PyStr} {s : σ} :
    ∃ out, Spec.Runs hs (Spec.consumed (splitC 32 text) (assign hs 0 (splitC 32 text))) s out ∧
      parseSection hs text s =
        out.map fun s' => (s', Spec.leftover (splitC 32 text) (assign hs 0 (splitC 32 text))) := by
  have := @parseGo_eq σ hs (splitC 32 text) 0 [] s (by simp)
  simpa [parseSection] using this

/-- Any property kept by every method of the table is kept by parsing. -/
theorem parseGo_invariant {hs : List (Handler σ)} {P : σ → Prop}
    (hP : ∀ h ∈ hs, ∀ g m s s', h.regexp.match g = some m → P s → h.run m s = .ok s' → P s')
    {gs : List PyStr} {index : Nat} {un : List PyStr} {s s' : σ} {un' : List PyStr} (h0 : P s)
    (h : parseGo hs gs index un s = .ok (s', un')) : P s' := by
  induction gs generalizing index un s with
  | nil => simp only [parseGo, Except.ok.injEq, Prod.mk.injEq] at h; rw [← h.1]; exact h0
  | cons g gs ih =>
    unfold parseGo at h
    cases ht : tryHandlers (hs.drop index) g 0 with
    | none => simp only [ht] at h; exact ih h0 h
    | some x =>
      obtain ⟨n, m, hd⟩ := x
      obtain ⟨i, h1, h2, h3, h4⟩ := tryHandlers_some ht
      have hmem : hd ∈ hs := List.mem_of_mem_drop (List.mem_of_getElem? h2)
      simp only [ht] at h
      cases hr : hd.run m s with
      | error e => simp [hr] at h
      | ok s1 =>
        simp only [hr] at h
        exact ih (hP hd hmem g m s s1 h3 h0 hr) h

theorem parseSection_invariant {hs : List (Handler σ)} {P : σ → Prop}
    (hP : ∀ h ∈ hs, ∀ g m s s', h.regexp.match g = some m → P s → h.run m s = .ok s' → P s')
    {text : PyStr} {s s' : σ} {un : List PyStr} (h0 : P s)
    (h : parseSection hs text s = .ok (s', un)) : P s' := parseGo_invariant hP h0 h

/-- The rule "first applicable handler not below those already used" determines the
assignment. -/
theorem firstApplicable_unique (hs : List (Handler σ)) (gs : List PyStr) (a b : List (Option Nat))
    (ha : a.length = gs.length) (hb : b.length = gs.length)
    (h1 : Spec.FirstApplicable hs gs a) (h2 : Spec.FirstApplicable hs gs b) : a = b := by
  have key : ∀ k, k ≤ gs.length → a.take k = b.take k := by
    intro k
    induction k with
    | zero => simp
    | succ k ih =>
      intro hk
      have ih := ih (by omega)
      obtain ⟨o, ho⟩ : ∃ o, a[k]? = some o := ⟨_, List.getElem?_eq_getElem (by omega)⟩
      obtain ⟨o', ho'⟩ : ∃ o, b[k]? = some o := ⟨_, List.getElem?_eq_getElem (by omega)⟩
      obtain ⟨g, hg⟩ : ∃ g, gs[k]? = some g := ⟨_, List.getElem?_eq_getElem (by omega)⟩
      have e1 := h1 k g o hg ho
      have e2 := h2 k g o' hg ho'
      rw [← ih] at e2
      have : o = o' := by
        cases o with
        | none =>
          cases o' with
          | none => rfl
          | some j => exact absurd e2.2.1 (e1 j e2.1)
        | some i =>
          cases o' with
          | none => exact absurd e1.2.1 (e2 i e1.1)
          | some j =>
            rcases Nat.lt_trichotomy i j with h | h | h
            · exact absurd e1.2.1 (e2.2.2 i e1.1 h)
            · rw [h]
            · exact absurd e2.2.1 (e1.2.2 j e2.1 h)
      rw [List.take_add_one, List.take_add_one, ih, ho, ho', this]
  have := key gs.length (Nat.le_refl _)
  rwa [List.take_of_length_le (by omega), List.take_of_length_le (by omega)] at this

theorem assign_firstApplicable (hs : List (Handler σ)) (gs : List PyStr) :
    Spec.FirstApplicable hs gs (assign hs 0 gs) := by
  intro k g o hg ho
  have := assign_first k g o hg ho
  simpa only [boundFrom_zero] using this

theorem decodes_iff (hs : List (Handler σ)) (gs : List PyStr) (c : List (PyStr × Nat)) :
    Spec.Decodes hs gs c ↔ c = Spec.consumed gs (assign hs 0 gs) := by
  constructor
  · rintro ⟨asg, h1, h2, rfl⟩
    rw [firstApplicable_unique hs gs asg _ h1 (assign_length hs 0 gs) h2
      (assign_firstApplicable hs gs)]
  · rintro rfl
    exact ⟨_, assign_length hs 0 gs, assign_firstApplicable hs gs, rfl⟩

end Verif
