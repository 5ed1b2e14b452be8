import Verif.Lemmas.Sub
import Verif.Lemmas.Str
import Verif.Model.Metar

/-
The clean-up of the report text (`normalizeCode`).
-/

namespace Verif

theorem getElem?_takeWhile_ge {p : Nat → Bool} (s : PyStr) (c : Nat)
    (h : s[(s.takeWhile p).length]? = some c) : p c = false := by
  induction s with
  | nil => simp at h
  | cons a t ih =>
    rw [List.takeWhile_cons] at h
    by_cases ha : p a
    · simp only [ha, if_true, List.length_cons, List.getElem?_cons_succ] at h
      exact ih h
    · simp only [ha] at h
      simp at h
      rw [← h]; simpa using ha

theorem downFrom_head (p : Nat) (cs : Caps) (lo n : Nat) :
    (downFrom p cs lo n).head? = if lo ≤ n then some (p + n, cs) else none := by
  cases n with
  | zero => by_cases h : lo = 0 <;> simp [downFrom, h]
  | succ n => by_cases h : lo ≤ n + 1 <;> simp [downFrom, h]

/-- Where the pattern of `Report.__init__` matches. -/
theorem blanks_match (s : PyStr) :
    blanksRE.match s =
      if 2 ≤ (s.takeWhile isSpace).length then some ⟨s, (s.takeWhile isSpace).length, []⟩
      else if s.head? = some 10 ∨ s.head? = some 9 then some ⟨s, 1, []⟩
      else none := by
  have hsp : CC.mem CC.space = isSpace := rfl
  have hlen : (s.takeWhile isSpace).length ≤ s.length := (List.takeWhile_sublist _).length_le
  have hm : RE.m s blanksRE (0, []) =
      downFrom 0 [] 2 (s.takeWhile isSpace).length ++
      (downFrom 0 [] 1 (min s.length (s.takeWhile (CC.mem (.set [(10, 10)]))).length) ++
       downFrom 0 [] 1 (min s.length (s.takeWhile (CC.mem (.set [(9, 9)]))).length)) := by
    show RE.m s (RE.alt (.rep .space 2 none) (.alt (.rep (.set [(10, 10)]) 1 none)
      (.rep (.set [(9, 9)]) 1 none))) (0, []) = _
    simp only [RE.m, runLen_eq, hsp, Option.getD_none, List.drop_zero, Nat.min_eq_right hlen]
  unfold RE.match
  rw [hm, List.head?_append, List.head?_append, downFrom_head, downFrom_head, downFrom_head]
  by_cases h2 : 2 ≤ (s.takeWhile isSpace).length
  · simp [h2]
  · simp only [h2, if_false, Option.none_or]
    cases s with
    | nil => simp
    | cons c t =>
      have hmem : ∀ k c, CC.mem (.set [(k, k)]) c = decide (c = k) := by
        intro k c
        simp only [CC.mem, CC.ranges, inRanges, List.any_cons, List.any_nil, Bool.or_false]
        rw [Bool.eq_iff_iff]
        simp only [Bool.and_eq_true, Nat.ble_eq, decide_eq_true_eq]
        omega
      have htw : ∀ k, k = 10 ∨ k = 9 → ((c :: t).takeWhile (CC.mem (.set [(k, k)]))).length =
          if c = k then 1 else 0 := by
        intro k hk
        rw [List.takeWhile_cons, hmem]
        by_cases hc : c = k
        · subst hc
          simp only [decide_true, if_true, List.length_cons]
          cases t with
          | nil => simp
          | cons d u =>
            rw [List.takeWhile_cons, hmem]
            by_cases hd : d = c
            · exfalso
              subst hd
              apply h2
              have : isSpace d = true := by rcases hk with rfl | rfl <;> decide
              simp [this]
            · simp [hd]
        · simp [hc]
      rw [htw 10 (Or.inl rfl), htw 9 (Or.inr rfl)]
      by_cases h10 : c = 10
      · subst h10; simp
      · by_cases h9 : c = 9
        · subst h9; simp
        · simp [h10, h9]

/-- What a maximal run of white space is replaced by. -/
def squeeze (w : PyStr) : PyStr :=
  if 2 ≤ w.length ∨ w = [10] ∨ w = [9] then [32] else w

/-- The substitution of `Report.__init__`. -/
def blanks (s : PyStr) : PyStr := blanksRE.sub [32] s 0

theorem blanks_eq (s : PyStr) : blanks s = blanksRE.subGo [32] none 0 s := rfl

theorem blanks_nil : blanks [] = [] := by rw [blanks_eq, RE.subGo_nil]

theorem blanks_cons {c : Nat} {t : PyStr} (h : isSpace c = false) :
    blanks (c :: t) = c :: blanks t := by
  rw [blanks_eq, blanks_eq]
  apply RE.subGo_none
  rw [blanks_match]
  have : c ≠ 10 ∧ c ≠ 9 := by
    constructor <;> (rintro rfl; exact absurd h (by decide))
  simp [h, this]

theorem takeWhile_run {w rest : PyStr} (hw : ∀ c ∈ w, isSpace c = true)
    (hr : ∀ c, rest.head? = some c → isSpace c = false) :
    (w ++ rest).takeWhile isSpace = w := by
  rw [List.takeWhile_append_of_pos hw]
  cases rest with
  | nil => simp
  | cons c t => simp [hr c rfl]

theorem blanks_run {w rest : PyStr} (h0 : w ≠ []) (hw : ∀ c ∈ w, isSpace c = true)
    (hr : ∀ c, rest.head? = some c → isSpace c = false) :
    blanks (w ++ rest) = squeeze w ++ blanks rest := by
  have hm := blanks_match (w ++ rest)
  rw [takeWhile_run hw hr] at hm
  rw [blanks_eq, blanks_eq]
  unfold squeeze
  by_cases h2 : 2 ≤ w.length
  · rw [if_pos h2] at hm
    rw [if_pos (Or.inl h2), RE.subGo_some hm (by simp; omega) (by simp) (by simp [h0])]
    simp
  · obtain ⟨c, rfl⟩ : ∃ c, w = [c] := by
      match w, h0, h2 with
      | [c], _, _ => exact ⟨c, rfl⟩
      | _ :: _ :: _, _, h2 => simp at h2
    rw [if_neg h2] at hm
    by_cases hc : c = 10 ∨ c = 9
    · rw [if_pos (by simpa using hc)] at hm
      rw [if_pos (by simpa using hc), RE.subGo_some hm (by simp) (by simp) (by simp)]
      simp
    · rw [if_neg (by simpa using hc)] at hm
      rw [if_neg (by simpa using hc)]
      exact RE.subGo_none hm

/-- Induction over the maximal runs of white space. -/
theorem runs_induction {P : PyStr → Prop} (nil : P [])
    (word : ∀ c t, isSpace c = false → P t → P (c :: t))
    (run : ∀ w rest, w ≠ [] → (∀ c ∈ w, isSpace c = true) →
      (∀ c, rest.head? = some c → isSpace c = false) → P rest → P (w ++ rest)) (s : PyStr) : P s := by
  generalize hn : s.length = n
  induction n using Nat.strongRecOn generalizing s with
  | ind n ih =>
    cases s with
    | nil => exact nil
    | cons c t =>
      by_cases hc : isSpace c
      · have e : c :: t = (c :: t).takeWhile isSpace ++ (c :: t).dropWhile isSpace :=
          (List.takeWhile_append_dropWhile).symm
        rw [e]
        refine run _ _ ?_ ?_ ?_ (ih ((c :: t).dropWhile isSpace).length ?_ _ rfl)
        · simp [hc]
        · intro d hd
          exact List.all_eq_true.1 List.all_takeWhile d hd
        · intro d hd
          have := List.head?_dropWhile_not isSpace (c :: t)
          rw [hd] at this
          simpa using this
        · rw [List.dropWhile_cons]
          simp only [hc, if_true]
          have := (List.dropWhile_sublist (p := isSpace) (l := t)).length_le
          simp only [List.length_cons] at hn
          omega
      · refine word c t (by simpa using hc) (ih t.length ?_ t rfl)
        simp only [List.length_cons] at hn
        omega

end Verif

namespace Verif

theorem squeeze_single {w : PyStr} (h0 : w ≠ []) (hw : ∀ c ∈ w, isSpace c = true) :
    ∃ x, squeeze w = [x] ∧ isSpace x = true ∧ x ≠ 10 ∧ x ≠ 9 := by
  unfold squeeze
  split
  · exact ⟨32, rfl, by decide, by decide, by decide⟩
  · next h =>
    match w, h0, h with
    | [c], _, h => exact ⟨c, rfl, hw c (by simp), by rintro rfl; simp at h, by rintro rfl; simp at h⟩
    | _ :: _ :: _, _, h => simp at h

theorem blanks_head {s : PyStr} (h : ∀ c, s.head? = some c → isSpace c = false) :
    ∀ c, (blanks s).head? = some c → isSpace c = false := by
  cases s with
  | nil => simp [blanks_nil]
  | cons a t =>
    have ha := h a rfl
    rw [blanks_cons ha]
    simpa using ha

theorem blanks_ne_nil {s : PyStr} (h : s ≠ []) : blanks s ≠ [] := by
  revert h
  refine runs_induction (P := fun s => s ≠ [] → blanks s ≠ []) (by simp) ?_ ?_ s
  · intro c t hc _ _
    rw [blanks_cons hc]; simp
  · intro w rest h0 hw hr _ _
    obtain ⟨x, hx, -⟩ := squeeze_single h0 hw
    rw [blanks_run h0 hw hr, hx]; simp

theorem blanks_last {s : PyStr} (h : ∀ c, s.getLast? = some c → isSpace c = false) :
    ∀ c, (blanks s).getLast? = some c → isSpace c = false := by
  revert h
  refine runs_induction (P := fun s => (∀ c, s.getLast? = some c → isSpace c = false) →
    ∀ c, (blanks s).getLast? = some c → isSpace c = false) (by simp [blanks_nil]) ?_ ?_ s
  · intro a t ha ih h c hc
    rw [blanks_cons ha] at hc
    by_cases ht : t = []
    · subst ht
      rw [blanks_nil] at hc
      simp at hc; subst hc; exact ha
    · rw [List.getLast?_cons] at hc
      have hne := blanks_ne_nil ht
      refine ih ?_ c ?_
      · intro d hd
        refine h d ?_
        rw [List.getLast?_cons, hd]; rfl
      · obtain ⟨d, hd⟩ : ∃ d, (blanks t).getLast? = some d :=
          ⟨_, List.getLast?_eq_some_getLast hne⟩
        rw [hd] at hc ⊢
        simpa using hc
  · intro w rest h0 hw hr ih h c hc
    rw [blanks_run h0 hw hr] at hc
    by_cases ht : rest = []
    · subst ht
      exfalso
      have hl : w.getLast? = some (w.getLast h0) := List.getLast?_eq_some_getLast h0
      have := h (w.getLast h0) (by simpa using hl)
      rw [hw _ (List.getLast_mem h0)] at this
      cases this
    · have hne := blanks_ne_nil ht
      rw [List.getLast?_append] at hc
      have hd := List.getLast?_eq_some_getLast hne
      rw [hd] at hc
      refine ih ?_ c ?_
      · intro d hd'
        refine h d ?_
        rw [List.getLast?_append, hd']; rfl
      · rw [hd]; simpa using hc

theorem blanks_no_newline (s : PyStr) : 10 ∉ blanks s ∧ 9 ∉ blanks s := by
  refine runs_induction (P := fun s => 10 ∉ blanks s ∧ 9 ∉ blanks s) (by simp [blanks_nil]) ?_ ?_ s
  · intro c t hc ih
    rw [blanks_cons hc]
    have : c ≠ 10 ∧ c ≠ 9 := by
      constructor <;> (rintro rfl; exact absurd hc (by decide))
    simp [ih, this.1.symm, this.2.symm]
  · intro w rest h0 hw hr ih
    obtain ⟨x, hx, _, h1, h2⟩ := squeeze_single h0 hw
    rw [blanks_run h0 hw hr, hx]
    simp [ih, h1.symm, h2.symm]

/-! ### Stripping -/

theorem dropWhile_id {s : PyStr} (h : ∀ c, s.head? = some c → isSpace c = false) :
    s.dropWhile isSpace = s := by
  cases s with
  | nil => rfl
  | cons a t => simp [h a rfl]

theorem strip_id {s : PyStr} (h1 : ∀ c, s.head? = some c → isSpace c = false)
    (h2 : ∀ c, s.getLast? = some c → isSpace c = false) : strip s = s := by
  unfold strip rstrip lstrip
  rw [dropWhile_id h1, dropWhile_id (by simpa using h2), List.reverse_reverse]

theorem lstrip_append {lead s : PyStr} (h : ∀ c ∈ lead, isSpace c = true) :
    lstrip (lead ++ s) = lstrip s := by
  unfold lstrip
  rw [List.dropWhile_append_of_pos h]

theorem rstrip_append {s trail : PyStr} (h : ∀ c ∈ trail, isSpace c = true) :
    rstrip (s ++ trail) = rstrip s := by
  unfold rstrip
  rw [List.reverse_append, List.dropWhile_append_of_pos (by simpa using h)]

theorem lstrip_head (s : PyStr) : ∀ c, (lstrip s).head? = some c → isSpace c = false := by
  intro c hc
  have := List.head?_dropWhile_not isSpace s
  unfold lstrip at hc
  rw [hc] at this
  simpa using this

theorem rstrip_last (s : PyStr) : ∀ c, (rstrip s).getLast? = some c → isSpace c = false := by
  intro c hc
  unfold rstrip at hc
  rw [List.getLast?_reverse] at hc
  have := List.head?_dropWhile_not isSpace s.reverse
  rw [hc] at this
  simpa using this

theorem rstrip_prefix (s : PyStr) : ∃ t, s = rstrip s ++ t ∧ ∀ c ∈ t, isSpace c = true := by
  refine ⟨(s.reverse.takeWhile isSpace).reverse, ?_, ?_⟩
  · unfold rstrip
    rw [← List.reverse_append, List.takeWhile_append_dropWhile, List.reverse_reverse]
  · intro c hc
    rw [List.mem_reverse] at hc
    exact List.all_eq_true.1 List.all_takeWhile c hc

theorem strip_head (s : PyStr) : ∀ c, (strip s).head? = some c → isSpace c = false := by
  intro c hc
  obtain ⟨t, ht, _⟩ := rstrip_prefix (lstrip s)
  refine lstrip_head s c ?_
  rw [ht]
  show (strip s ++ t).head? = some c
  rw [List.head?_append, hc]; rfl

theorem strip_last (s : PyStr) : ∀ c, (strip s).getLast? = some c → isSpace c = false :=
  rstrip_last _

theorem strip_mem {s : PyStr} {c : Nat} (h : c ∈ strip s) : c ∈ s := by
  obtain ⟨t, ht, _⟩ := rstrip_prefix (lstrip s)
  have h1 : c ∈ lstrip s := by
    rw [ht]; exact List.mem_append_left _ h
  exact (List.dropWhile_sublist isSpace).subset h1

end Verif
