import Verif.Lemmas.Cut
import Verif.Lemmas.Sections

/-
Cutting the trend section of a METAR into its trends: of each opening word the first occurrence
between blanks is marked.
-/

namespace Verif
open Spec

theorem splitC_at (sep : Nat) (a b : PyStr) : splitC sep (a ++ sep :: b) = splitC sep a ++ splitC sep b := by
  induction a with
  | nil => simp [splitC]
  | cons c t ih =>
    by_cases hc : c = sep
    · subst hc
      rw [List.cons_append, splitC_sep, splitC_sep, ih]; rfl
    · obtain ⟨w, ws, h1, h2⟩ := splitC_cons (t := t) hc
      obtain ⟨w', ws', h3, h4⟩ := splitC_cons (t := t ++ sep :: b) hc
      rw [List.cons_append, h4, h2]
      rw [ih, h1] at h3
      simp only [List.cons_append, List.cons.injEq] at h3
      rw [← h3.1, ← h3.2]; rfl

/-- A keyword between blanks in a text of words is one of the words inside. -/
theorem keyword_word {ws : List PyStr} (hne : ws ≠ []) (h : ∀ w ∈ ws, 32 ∉ w) {kw a b : PyStr} (hk : 32 ∉ kw)
    (he : join [32] ws = a ++ 32 :: (kw ++ 32 :: b)) :
    ∃ A B, ws = A ++ kw :: B ∧ A ≠ [] ∧ B ≠ [] ∧ a = join [32] A := by
  have h1 := splitC_join ws hne h
  rw [he, splitC_at, splitC_at] at h1
  have hw : splitC 32 kw = [kw] := by
    have := splitC_join (sep := 32) [kw] (by simp) (by simpa using hk)
    simpa [join] using this
  rw [hw] at h1
  exact ⟨_, _, h1.symm, splitC_ne _ _, splitC_ne _ _, (join_splitC _).symm⟩

/-- The keyword is not between blanks: nothing is marked. -/
theorem mark_absent {kw s : PyStr} (h : ∀ a b, s ≠ a ++ 32 :: (kw ++ 32 :: b)) (repl : PyStr) :
    (RE.ofLit (Space.both.add kw)).sub repl s 1 = s := by
  unfold RE.sub
  apply RE.subGo_absent
  intro i hi
  rw [RE.match_ofLit, if_neg]
  rw [List.isPrefixOf_iff_prefix]
  rintro ⟨b, hb⟩
  refine h (s.take i) b ?_
  conv => lhs; rw [← List.take_append_drop i s, ← hb]
  simp [Space.add]

/-- The first occurrence of the keyword between blanks is marked. -/
theorem mark_first {kw : PyStr} (hk : kw ≠ []) (hs : ∀ c ∈ kw, isSpace c = false) (pre post : PyStr)
    (h : ∀ a b, pre ++ 32 :: (kw ++ 32 :: post) = a ++ 32 :: (kw ++ 32 :: b) → pre.length ≤ a.length) :
    (RE.ofLit (Space.both.add kw)).sub (124 :: lstrip (Space.both.add kw)) (pre ++ 32 :: (kw ++ 32 :: post)) 1 =
      pre ++ 124 :: (kw ++ 32 :: post) := by
  have hl : lstrip (Space.both.add kw) = kw ++ [32] := by
    obtain ⟨c, t, rfl⟩ := List.exists_cons_of_ne_nil hk
    have := hs c (by simp)
    simp only [Space.add, lstrip, List.cons_append]
    rw [List.dropWhile_cons_of_pos (by decide), List.dropWhile_cons_of_neg (by simp [this])]
  rw [hl]
  unfold RE.sub
  simp only [Nat.one_ne_zero, if_false]
  induction pre with
  | nil =>
    rw [List.nil_append]
    have hm : (RE.ofLit (Space.both.add kw)).match (32 :: (kw ++ 32 :: post)) =
        some ⟨32 :: (kw ++ 32 :: post), (Space.both.add kw).length, []⟩ := by
      rw [RE.match_ofLit, if_pos]
      rw [List.isPrefixOf_iff_prefix]
      exact ⟨post, by simp [Space.add]⟩
    rw [RE.subGo_some hm (by simp [Space.add]) (by simp) (by simp)]
    simp only [Option.map_some, Nat.sub_self, RE.subGo_zero]
    have : (32 :: (kw ++ 32 :: post)).drop (Space.both.add kw).length = post := by
      have : 32 :: (kw ++ 32 :: post) = Space.both.add kw ++ post := by simp [Space.add]
      rw [this, List.drop_left]
    rw [this]
    simp
  | cons c t ih =>
    rw [List.cons_append, RE.subGo_none, ih, List.cons_append]
    · intro a b hab
      have := h (c :: a) b (by rw [List.cons_append, hab]; rfl)
      simpa using this
    · rw [RE.match_ofLit, if_neg]
      rw [List.isPrefixOf_iff_prefix]
      rintro ⟨b, hb⟩
      have := h [] b (by rw [List.cons_append, ← hb]; simp [Space.add])
      simp at this

/-- The parts of a section of words. -/
theorem one_trend {ws : List PyStr} (hne : ws ≠ []) (h : ∀ w ∈ ws, 32 ∉ w ∧ 124 ∉ w)
    (hno : ∀ w ∈ ws.tail, w ≠ py!"TEMPO" ∧ w ≠ py!"BECMG") :
    splitSentence (join [32] ws) [py!"TEMPO", py!"BECMG"] 1 .both = [join [32] ws] := by
  have absent : ∀ kw ∈ [py!"TEMPO", py!"BECMG"], ∀ a b, join [32] ws ≠ a ++ 32 :: (kw ++ 32 :: b) := by
    intro kw hk a b he
    have hk32 : ∀ kw ∈ [py!"TEMPO", py!"BECMG"], 32 ∉ kw := by decide
    obtain ⟨A, B, e, hA, -⟩ := keyword_word hne (fun w hw => (h w hw).1) (hk32 kw hk) he
    obtain ⟨x, A', rfl⟩ := List.exists_cons_of_ne_nil hA
    have := hno kw (by rw [e]; simp)
    simp only [List.mem_cons, List.not_mem_nil, or_false] at hk
    rcases hk with rfl | rfl
    · exact this.1 rfl
    · exact this.2 rfl
  unfold splitSentence
  simp only [List.foldl_cons, List.foldl_nil]
  rw [mark_absent (absent _ (by simp)), mark_absent (absent _ (by simp))]
  have hj : 124 ∉ join [32] ws := by
    intro hm
    rcases mem_join hm with hm | ⟨w, hw, hm⟩
    · simp at hm
    · exact (h w hw).2 hm
  have := splitC_join (sep := 124) [join [32] ws] (by simp) (by simpa using hj)
  simpa [join] using this

/-- The last word of the first part carries the mark. -/
theorem marked_words {ws1 : List PyStr} (hne : ws1 ≠ []) (kw : PyStr) {ws2 : List PyStr} (h2 : ws2 ≠ []) :
    ∃ A x, ws1 = A ++ [x] ∧ join [32] ws1 ++ 124 :: (kw ++ 32 :: join [32] ws2) =
      join [32] (A ++ (x ++ 124 :: kw) :: ws2) := by
  refine ⟨ws1.dropLast, ws1.getLast hne, (List.dropLast_concat_getLast hne).symm, ?_⟩
  have e := List.dropLast_concat_getLast hne
  conv => lhs; rw [← e]
  generalize ws1.dropLast = A
  generalize ws1.getLast hne = x
  cases A with
  | nil =>
    rw [List.nil_append, List.nil_append, join_cons_ne h2]
    simp [join]
  | cons y A =>
    rw [join_append (by simp) (by simp), join_append (by simp) (by simp), join_cons_ne h2]
    simp [join]

theorem two_trends {ws1 ws2 : List PyStr} {kw : PyStr} (h1 : ws1 ≠ []) (h2 : ws2 ≠ [])
    (hk : kw = py!"TEMPO" ∨ kw = py!"BECMG") (h : ∀ w ∈ ws1 ++ ws2, 32 ∉ w ∧ 124 ∉ w)
    (hno : ∀ w ∈ ws1.tail ++ ws2, w ≠ py!"TEMPO" ∧ w ≠ py!"BECMG") :
    splitSentence (join [32] (ws1 ++ kw :: ws2)) [py!"TEMPO", py!"BECMG"] 1 .both =
      [join [32] ws1, join [32] (kw :: ws2)] := by
  have hkp : kw ≠ [] ∧ (∀ c ∈ kw, isSpace c = false) ∧ 32 ∉ kw ∧ 124 ∉ kw := by
    rcases hk with rfl | rfl <;> decide
  have hall : ∀ w ∈ ws1 ++ kw :: ws2, 32 ∉ w ∧ 124 ∉ w := by
    intro w hw
    simp only [List.mem_append, List.mem_cons] at hw
    rcases hw with hw | rfl | hw
    · exact h w (List.mem_append_left _ hw)
    · exact hkp.2.2
    · exact h w (List.mem_append_right _ hw)
  have hj : join [32] (ws1 ++ kw :: ws2) = join [32] ws1 ++ 32 :: (kw ++ 32 :: join [32] ws2) := by
    rw [join_append h1 (by simp), join_cons_ne h2]
    simp
  have hkno : kw ∉ ws1.tail ++ ws2 := by
    intro hm
    rcases hk with rfl | rfl
    · exact (hno _ hm).1 rfl
    · exact (hno _ hm).2 rfl
  -- the mark of the second opening
  have mark : (RE.ofLit (Space.both.add kw)).sub (124 :: lstrip (Space.both.add kw))
      (join [32] (ws1 ++ kw :: ws2)) 1 = join [32] ws1 ++ 124 :: (kw ++ 32 :: join [32] ws2) := by
    rw [hj]
    refine mark_first hkp.1 hkp.2.1 _ _ fun a b hab => ?_
    rw [← hj] at hab
    obtain ⟨A, B, e, hA, -, rfl⟩ := keyword_word (by simp) (fun w hw => (hall w hw).1) hkp.2.2.1 hab
    have : A = ws1 := by
      rcases List.append_eq_append_iff.1 e with ⟨c, e1, e2⟩ | ⟨c, e1, e2⟩
      · cases c with
        | nil => simpa using e1
        | cons x c =>
          simp only [List.cons_append, List.cons.injEq] at e2
          exact absurd (List.mem_append_right _ (by rw [e2.2]; simp)) hkno
      · cases c with
        | nil => simpa using e1.symm
        | cons x c =>
          simp only [List.cons_append, List.cons.injEq] at e2
          rw [← e2.1] at e1
          obtain ⟨y, A', rfl⟩ := List.exists_cons_of_ne_nil hA
          exact absurd (List.mem_append_left _ (by rw [e1]; simp)) hkno
    rw [this]
    exact Nat.le_refl _
  -- the other word is not marked
  have other : ∀ kw', (kw' = py!"TEMPO" ∨ kw' = py!"BECMG") → kw' ≠ kw →
      (∀ a b, join [32] (ws1 ++ kw :: ws2) ≠ a ++ 32 :: (kw' ++ 32 :: b)) ∧
      (∀ a b, join [32] ws1 ++ 124 :: (kw ++ 32 :: join [32] ws2) ≠ a ++ 32 :: (kw' ++ 32 :: b)) := by
    intro kw' hk' hne
    have hk2 : 32 ∉ kw' ∧ 124 ∉ kw' := by rcases hk' with rfl | rfl <;> decide
    have hkno' : kw' ∉ ws1.tail ++ ws2 := by
      intro hm
      rcases hk' with rfl | rfl
      · exact (hno _ hm).1 rfl
      · exact (hno _ hm).2 rfl
    rw [List.mem_append, not_or] at hkno'
    constructor
    · intro a b he
      obtain ⟨A, B, e, hA, -⟩ := keyword_word (by simp) (fun w hw => (hall w hw).1) hk2.1 he
      obtain ⟨y, A', rfl⟩ := List.exists_cons_of_ne_nil hA
      obtain ⟨z, ws1', rfl⟩ := List.exists_cons_of_ne_nil h1
      simp only [List.cons_append, List.cons.injEq] at e
      have : kw' ∈ ws1' ++ kw :: ws2 := by rw [e.2]; simp
      simp only [List.mem_append, List.mem_cons] at this
      rcases this with h | h | h
      · exact hkno'.1 h
      · exact hne h
      · exact hkno'.2 h
    · intro a b he
      obtain ⟨C, x, rfl, e0⟩ := marked_words h1 kw h2
      rw [e0] at he
      obtain ⟨A, B, e, hA, -⟩ := keyword_word (by simp) (fun w hw => by
        simp only [List.mem_append, List.mem_cons] at hw
        rcases hw with hw | rfl | hw
        · exact (hall w (by simp [hw])).1
        · have := (hall x (by simp)).1
          have := hkp.2.2.1
          simp [*]
        · exact (hall w (by simp [hw])).1) hk2.1 he
      obtain ⟨y, A', rfl⟩ := List.exists_cons_of_ne_nil hA
      have key : kw' = x ++ 124 :: kw ∨ kw' ∈ ws2 ∨ kw' ∈ (C ++ [x]).tail := by
        cases C with
        | nil =>
          simp only [List.nil_append, List.cons_append, List.cons.injEq] at e
          exact .inr (.inl (by rw [e.2]; simp))
        | cons z C =>
          simp only [List.cons_append, List.cons.injEq] at e
          have : kw' ∈ C ++ (x ++ 124 :: kw) :: ws2 := by rw [e.2]; simp
          simp only [List.mem_append, List.mem_cons] at this
          rcases this with h | h | h
          · exact .inr (.inr (by simp [h]))
          · exact .inl h
          · exact .inr (.inl h)
      rcases key with h | h | h
      · exact hk2.2 (by rw [h]; simp)
      · exact hkno'.2 h
      · exact hkno'.1 h
  have hres : splitC 124 (join [32] ws1 ++ 124 :: (kw ++ 32 :: join [32] ws2)) =
      [join [32] ws1, join [32] (kw :: ws2)] := by
    have bars : ∀ ws : List PyStr, (∀ w ∈ ws, 124 ∉ w) → 124 ∉ join [32] ws := by
      intro ws hw hm
      rcases mem_join hm with hm | ⟨w, hw', hm⟩
      · simp at hm
      · exact hw w hw' hm
    have := splitC_join (sep := 124) [join [32] ws1, join [32] (kw :: ws2)] (by simp) (by
      intro w hw
      simp only [List.mem_cons, List.not_mem_nil, or_false] at hw
      rcases hw with rfl | rfl
      · exact bars _ fun w hw => (hall w (by simp [hw])).2
      · exact bars _ fun w hw => (hall w (List.mem_append_right _ hw)).2)
    rw [join_cons_ne h2] at this
    rw [join_cons_ne h2]
    simpa [join] using this
  unfold splitSentence
  simp only [List.foldl_cons, List.foldl_nil]
  rcases hk with rfl | rfl
  · rw [mark, mark_absent (other _ (.inr rfl) (by decide)).2, hres]
  · rw [mark_absent (other _ (.inl rfl) (by decide)).1, mark, hres]

end Verif
