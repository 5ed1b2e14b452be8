import Verif.Props.TafSections

/-
The sections of a TAF whose body has words that end in TAF, such as the code LTAF of Adana: the
blank after such a word is hidden while the text is cut, and is shown again in the body.
-/

namespace Verif.Props
open Spec

/-- No text that is replaced begins within `p`. -/
theorem replace_pass {old new p s : PyStr}
    (h : ∀ pre x post, p = pre ++ x :: post → ¬ old <+: x :: (post ++ s)) :
    replace (p ++ s) old new = p ++ replace s old new := by
  induction p with
  | nil => rfl
  | cons x p ih =>
    rw [List.cons_append, replace_miss (h [] x p rfl), ih, List.cons_append]
    intro pre y post e
    exact h (x :: pre) y post (by rw [e]; rfl)

/-- A text that ends with the character `c` does not begin within a text without `c` before the `c`
unless the rest before it is what it ends with. -/
theorem prefix_ends {kw x s : PyStr} {c : Nat} (hk : c ∉ kw) (hx : c ∉ x)
    (h : kw ++ [c] <+: x ++ c :: s) : kw = x := by
  obtain ⟨t, e⟩ := h
  rw [List.append_assoc] at e
  exact (List.append_eq_append_iff.1 e).elim
    (fun ⟨as, e1, e2⟩ => by
      cases as with
      | nil => simpa using e1.symm
      | cons a as =>
        simp only [List.cons_append, List.nil_append, List.cons.injEq] at e2
        exact absurd (by rw [e1]; simp [e2.1]) hx)
    (fun ⟨bs, e1, e2⟩ => by
      cases bs with
      | nil => simpa using e1
      | cons b bs =>
        simp only [List.cons_append, List.cons.injEq] at e2
        exact absurd (by rw [e1]; simp [e2.1]) hk)

/-- The first `c` of a text, when the word before it does not end with `kw`. -/
theorem replace_word_miss {kw new w s : PyStr} {c : Nat} (hk : c ∉ kw) (hne : kw ≠ []) (hw : c ∉ w)
    (h : ¬ kw <:+ w) :
    replace (w ++ c :: s) (kw ++ [c]) new = w ++ c :: replace s (kw ++ [c]) new := by
  rw [show w ++ c :: s = (w ++ [c]) ++ s by simp, replace_pass]
  · simp
  · intro pre x post e hp
    rcases List.append_eq_append_iff.1 e with ⟨as, e1, e2⟩ | ⟨bs, e1, e2⟩
    · cases as with
      | nil =>
        simp only [List.nil_append, List.cons.injEq] at e2
        obtain ⟨rfl, rfl⟩ := e2
        cases kw with
        | nil => exact hne rfl
        | cons k kw =>
          rw [List.cons_append, List.cons_prefix_cons] at hp
          exact hk (by simp [hp.1])
      | cons a as =>
        simp at e2
    · cases bs with
      | nil =>
        simp only [List.nil_append, List.cons.injEq] at e2
        obtain ⟨rfl, rfl⟩ := e2
        cases kw with
        | nil => exact hne rfl
        | cons k kw =>
          rw [List.cons_append, List.cons_prefix_cons] at hp
          exact hk (by simp [hp.1])
      | cons b bs =>
        simp only [List.cons_append, List.cons.injEq] at e2
        obtain ⟨rfl, rfl⟩ := e2
        have hx : c ∉ x :: bs := fun hm => hw (by rw [e1]; exact List.mem_append_right _ hm)
        have hp' : kw ++ [c] <+: (x :: bs) ++ c :: s := by simpa using hp
        exact h ⟨pre, by rw [e1, prefix_ends hk hx hp']⟩

/-- The first `c` of a text, when the word before it ends with `kw`. -/
theorem replace_word_hit {kw new p s : PyStr} {c : Nat} (hk : c ∉ kw) (hw : c ∉ p ++ kw) :
    replace (p ++ kw ++ c :: s) (kw ++ [c]) new = p ++ new ++ replace s (kw ++ [c]) new := by
  have e : p ++ kw ++ c :: s = p ++ ((kw ++ [c]) ++ s) := by simp
  rw [e, replace_pass, replace_hit (by simp)]
  · simp
  · intro pre x post e hp
    have hx : c ∉ (x :: post) ++ kw := by
      rw [e] at hw
      intro hm
      exact hw (by rw [List.append_assoc]; exact List.mem_append_right _ hm)
    have := prefix_ends hk hx (s := s) (by simpa using hp)
    have := congrArg List.length this
    simp at this
    omega

theorem replace_word_none {kw new w : PyStr} {c : Nat} (hw : c ∉ w) : replace w (kw ++ [c]) new = w := by
  apply replace_none
  rintro pre post rfl
  exact hw (by simp)

/-- The words, those that end in TAF being joined to the next one with an underscore. -/
def glue : List PyStr → List PyStr
  | [] => []
  | [w] => [w]
  | w :: v :: ws =>
    if py!"TAF".isSuffixOf w then
      match glue (v :: ws) with
      | [] => [w]
      | g :: gs => (w ++ [95] ++ g) :: gs
    else w :: glue (v :: ws)

theorem glue_cons (w : PyStr) (ws : List PyStr) :
    ∃ g gs, glue (w :: ws) = g :: gs ∧ (g = w ∨ ∃ t, g = w ++ 95 :: t) := by
  cases ws with
  | nil => exact ⟨w, [], rfl, .inl rfl⟩
  | cons v ws =>
    rw [glue]
    split
    · cases glue (v :: ws) with
      | nil => exact ⟨w, [], rfl, .inl rfl⟩
      | cons g gs => exact ⟨_, gs, rfl, .inr ⟨g, by simp⟩⟩
    · exact ⟨w, _, rfl, .inl rfl⟩

theorem glue_ne {w : PyStr} {ws : List PyStr} : glue (w :: ws) ≠ [] := by
  obtain ⟨g, gs, h, -⟩ := glue_cons w ws
  simp [h]

theorem join_glue_hit {w v : PyStr} {ws : List PyStr} (h : py!"TAF" <:+ w) :
    join [32] (glue (w :: v :: ws)) = w ++ 95 :: join [32] (glue (v :: ws)) := by
  rw [glue, if_pos (List.isSuffixOf_iff_suffix.2 h)]
  obtain ⟨g, gs, e, -⟩ := glue_cons v ws
  rw [e]
  cases gs <;> simp [join]

theorem join_glue_miss {w v : PyStr} {ws : List PyStr} (h : ¬ py!"TAF" <:+ w) :
    join [32] (glue (w :: v :: ws)) = w ++ 32 :: join [32] (glue (v :: ws)) := by
  rw [glue, if_neg (fun h' => h (List.isSuffixOf_iff_suffix.1 h')), join_cons_ne glue_ne]
  simp

/-- The blanks after TAF are hidden. -/
theorem protect_glue {ws : List PyStr} (hw : ∀ w ∈ ws, 32 ∉ w) :
    replace (join [32] ws) py!"TAF " py!"TAF_" = join [32] (glue ws) := by
  induction ws with
  | nil => exact replace_nil (by simp)
  | cons w ws ih =>
    have h0 := hw w (by simp)
    cases ws with
    | nil => exact replace_word_none (kw := py!"TAF") h0
    | cons v ws =>
      have ih := ih fun x hx => hw x (by simp at hx ⊢; exact .inr hx)
      have e : join [32] (w :: v :: ws) = w ++ 32 :: join [32] (v :: ws) := by
        rw [join_cons_ne (by simp)]; simp
      rw [e]
      by_cases h : py!"TAF" <:+ w
      · rw [join_glue_hit h, ← ih]
        obtain ⟨p, rfl⟩ := h
        rw [show py!"TAF " = py!"TAF" ++ [32] from rfl, replace_word_hit (by decide) h0]
        simp
      · rw [join_glue_miss h, ← ih]
        exact replace_word_miss (kw := py!"TAF") (by decide) (by simp) h0 h

/-- The hidden blanks are shown again. -/
theorem restore_glue {ws : List PyStr} (hw : ∀ w ∈ ws, 95 ∉ w) :
    replace (join [32] (glue ws)) py!"TAF_" py!"TAF " = join [32] ws := by
  induction ws with
  | nil => exact replace_nil (by simp)
  | cons w ws ih =>
    have h0 := hw w (by simp)
    cases ws with
    | nil => exact replace_word_none (kw := py!"TAF") h0
    | cons v ws =>
      have ih := ih fun x hx => hw x (by simp at hx ⊢; exact .inr hx)
      have e : join [32] (w :: v :: ws) = w ++ 32 :: join [32] (v :: ws) := by
        rw [join_cons_ne (by simp)]; simp
      rw [e]
      by_cases h : py!"TAF" <:+ w
      · rw [join_glue_hit h, ← ih]
        obtain ⟨p, rfl⟩ := h
        rw [show py!"TAF_" = py!"TAF" ++ [95] from rfl, replace_word_hit (by decide) h0]
        simp
      · rw [join_glue_miss h, ← ih]
        rw [show w ++ 32 :: join [32] (glue (v :: ws)) = (w ++ [32]) ++ join [32] (glue (v :: ws)) by simp,
          replace_pass]
        · simp
        · intro pre x post ex hp
          have hd : 95 ∉ w ++ [32] := by simp [h0]
          -- the text would have the blank among its first four characters
          obtain ⟨t, ht⟩ := hp
          rcases List.append_eq_append_iff.1 ex with ⟨as, e1, e2⟩ | ⟨bs, e1, e2⟩
          · cases as with
            | nil =>
              simp only [List.nil_append, List.cons.injEq] at e2
              obtain ⟨rfl, rfl⟩ := e2
              simp at ht
            | cons a as => simp at e2
          · cases bs with
            | nil =>
              simp only [List.nil_append, List.cons.injEq] at e2
              obtain ⟨rfl, rfl⟩ := e2
              simp at ht
            | cons b bs =>
              simp only [List.cons_append, List.cons.injEq] at e2
              obtain ⟨rfl, rfl⟩ := e2
              rw [e1] at h0
              match bs, h0, ht with
              | [], _, ht => simp at ht
              | [_], _, ht => simp at ht
              | [_, _], _, ht => simp at ht
              | _ :: _ :: _ :: _, h0, ht =>
                simp only [List.cons_append, List.nil_append, List.cons.injEq] at ht
                exact h0 (by simp [← ht.2.2.2.1])

theorem glue_chars {ws : List PyStr} {w : PyStr} (h : w ∈ glue ws) {c : Nat} (hc : c ∈ w) :
    c = 95 ∨ ∃ v ∈ ws, c ∈ v := by
  induction ws generalizing w with
  | nil => simp [glue] at h
  | cons x ws ih =>
    cases ws with
    | nil =>
      rw [glue, List.mem_singleton] at h
      exact .inr ⟨x, by simp, h ▸ hc⟩
    | cons v ws =>
      rw [glue] at h
      have up : (c = 95 ∨ ∃ y ∈ v :: ws, c ∈ y) → c = 95 ∨ ∃ y ∈ x :: v :: ws, c ∈ y := by
        rintro (h | ⟨y, hy, hc⟩)
        · exact .inl h
        · exact .inr ⟨y, List.mem_cons_of_mem _ hy, hc⟩
      split at h
      · cases e : glue (v :: ws) with
        | nil => exact absurd e glue_ne
        | cons g gs =>
          rw [e] at h ih
          simp only at h
          rcases List.mem_cons.1 h with rfl | h
          · simp only [List.mem_append, List.mem_singleton] at hc
            rcases hc with (hc | rfl) | hc
            · exact .inr ⟨x, by simp, hc⟩
            · exact .inl rfl
            · exact up (ih (w := g) (by simp) hc)
          · exact up (ih (List.mem_cons_of_mem _ h) hc)
      · rcases List.mem_cons.1 h with rfl | h
        · exact .inr ⟨w, by simp, hc⟩
        · exact up (ih h hc)

theorem opens_under {w t : PyStr} (h : Opens tafWords (w ++ 95 :: t)) : Opens tafWords w := by
  obtain ⟨kw, hk, hp⟩ := h
  refine ⟨kw, hk, ?_⟩
  have h95 : 95 ∉ kw := by
    have : ∀ k ∈ tafWords, 95 ∉ k := by decide
    exact this kw hk
  exact (prefix_front h95).1 hp

theorem glue_quiet {ws : List PyStr} (h : ∀ w ∈ ws.tail, ¬ Opens tafWords w) :
    ∀ w ∈ (glue ws).tail, ¬ Opens tafWords w := by
  induction ws with
  | nil => simp [glue]
  | cons x ws ih =>
    cases ws with
    | nil => simp [glue]
    | cons v ws =>
      have ih := ih fun w hw => h w (by simp at hw ⊢; exact .inr hw)
      rw [glue]
      obtain ⟨g, gs, e, hg⟩ := glue_cons v ws
      rw [e] at ih ⊢
      split
      · exact ih
      · intro w hw
        simp only [List.tail_cons] at hw
        rcases List.mem_cons.1 hw with rfl | hw
        · have hv := h v (by simp)
          rcases hg with rfl | ⟨t, rfl⟩
          · exact hv
          · exact fun ho => hv (opens_under ho)
        · exact ih w hw

theorem glue_same {ws : List PyStr} (h : ∀ w ∈ ws, ¬ py!"TAF" <:+ w) : glue ws = ws := by
  induction ws with
  | nil => rfl
  | cons w ws ih =>
    cases ws with
    | nil => rfl
    | cons v ws =>
      rw [glue, if_neg (fun h' => h w (by simp) (List.isSuffixOf_iff_suffix.1 h')),
        ih fun x hx => h x (List.mem_cons_of_mem _ hx)]

theorem glue_append {as cs : List PyStr} (hne : as ≠ []) (hl : ¬ py!"TAF" <:+ as.getLast hne)
    (hc : ∀ w ∈ cs, ¬ py!"TAF" <:+ w) : glue (as ++ cs) = glue as ++ cs := by
  induction as with
  | nil => exact absurd rfl hne
  | cons a as ih =>
    cases as with
    | nil =>
      simp only [List.getLast_singleton] at hl
      rw [glue_same]
      · rfl
      · intro w hw
        rcases List.mem_append.1 hw with hw | hw
        · rw [List.mem_singleton.1 hw]; exact hl
        · exact hc w hw
    | cons b as =>
      have ih := ih (by simp) (by simpa using hl)
      rw [List.cons_append, List.cons_append, glue, glue, ← List.cons_append, ih]
      obtain ⟨g, gs, e, -⟩ := glue_cons b as
      rw [e]
      split <;> rfl

theorem joinProbs_chars {n : Nat} {ws : List PyStr} (hu : ∀ w ∈ ws, Unbarred w) (hc : ∀ w ∈ ws, Clean w) :
    ∀ w ∈ joinProbs n ws, Unbarred w := by
  induction n generalizing ws with
  | zero => exact hu
  | succ n ih =>
    unfold joinProbs
    cases h0 : joinProb ws with
    | none => exact hu
    | some ws' =>
      obtain ⟨h1, h2, -, -⟩ := joinProb_proper h0 hu hc
      exact ih h1 h2

/-- The sections of a text of words that begins with TAF, whose body may have words that end in TAF. -/
theorem tafSections_glued {ws bs : List PyStr} {changes : List (PyStr × List PyStr)}
    (hw : ∀ w ∈ ws, Unbarred w ∧ 95 ∉ w)
    (e : joinProbs 5 ws = py!"TAF" :: bs ++ changes.flatMap fun p => p.1 :: p.2)
    (hb0 : bs ≠ []) (hu : ∀ w ∈ bs, 95 ∉ w) (hb : ∀ w ∈ bs.tail, ¬ Opens tafWords w)
    (hl : ¬ py!"TAF" <:+ bs.getLast hb0)
    (hc : ∀ p ∈ changes, Opens tafWords p.1 ∧ ¬ py!"TAF" <:+ p.1 ∧
      ∀ w ∈ p.2, ¬ Opens tafWords w ∧ ¬ py!"TAF" <:+ w) :
    normalizeCode (join [32] ws) = join [32] ws ∧
    tafSections (join [32] ws) =
      (join [32] (py!"TAF" :: bs), changes.map fun p => join [32] (p.1 :: p.2)) := by
  have hq := joinProbs_chars (n := 5) (fun w h => (hw w h).1) (fun w h => clean_of_plain (hw w h).2)
  have hne : ws ≠ [] := by
    rintro rfl
    simp [joinProbs, joinProb] at e
  have hs : ∀ w ∈ ws, Solid w := fun w h c hc => ((hw w h).1.1.2 c hc).1
  refine ⟨normalizeCode_join hne fun w h => (hw w h).1.1, ?_⟩
  obtain ⟨b, cs, hsp, ht⟩ := tafSections_eq (join [32] ws)
  rw [ht]
  rw [e] at hq
  obtain ⟨s, bs, rfl⟩ := List.exists_cons_of_ne_nil hb0
  have hg : glue (py!"TAF" :: s :: bs ++ changes.flatMap fun p => p.1 :: p.2) =
      glue (py!"TAF" :: s :: bs) ++ changes.flatMap fun p => p.1 :: p.2 := by
    apply glue_append (by simp) (by simpa using hl)
    intro w hw'
    obtain ⟨p, hp, hw'⟩ := List.mem_flatMap.1 hw'
    rcases List.mem_cons.1 hw' with rfl | hw'
    · exact (hc p hp).2.1
    · exact ((hc p hp).2.2 w hw').2
  have hcut : tafCut (join [32] ws) =
      join [32] (glue (py!"TAF" :: s :: bs) ++ changes.flatMap fun p => p.1 :: p.2) := by
    unfold tafCut
    rw [C55_change_indicator_words ws hs, e, List.cons_append, starts_join (by decide),
      if_pos (by decide), ← List.cons_append, protect_glue fun w h => (hq w h).no_blank, hg]
  obtain ⟨g, gs, eg⟩ := List.exists_cons_of_ne_nil (glue_ne (w := py!"TAF") (ws := s :: bs))
  have hquiet : ∀ w ∈ gs, ¬ Opens tafWords w := by
    obtain ⟨x, xs, ex, -⟩ := glue_cons s bs
    have h1 := glue_quiet (ws := s :: bs) hb
    rw [glue, if_pos (by decide), ex] at eg
    simp only [List.cons.injEq] at eg
    rw [ex] at h1
    rw [← eg.2]
    exact h1
  have hchars : ∀ w ∈ glue (py!"TAF" :: s :: bs), 32 ∉ w ∧ 124 ∉ w := by
    intro w hw'
    constructor
    all_goals
      intro hm
      rcases glue_chars hw' hm with h | ⟨v, hv, hm⟩
      · simp at h
    · exact (hq v (by simp only [List.cons_append] at hv ⊢; simp at hv ⊢; grind)).no_blank hm
    · exact (hq v (by simp only [List.cons_append] at hv ⊢; simp at hv ⊢; grind)).2 hm
  have hmem : ∀ p ∈ changes, ∀ w ∈ p.1 :: p.2, Unbarred w := fun p hp w hw' =>
    hq w (List.mem_append_right _ (List.mem_flatMap.2 ⟨p, hp, hw'⟩))
  rw [eg] at hcut hchars
  have hpc := parts_pieces tafWords_plain g gs changes (hchars g (by simp)).1
    (fun w hw' => ⟨(hchars w (by simp [hw'])).1, hquiet w hw'⟩)
    (fun p hp => ⟨(hmem p hp p.1 (by simp)).no_blank, (hc p hp).1, fun w hw' =>
      ⟨(hmem p hp w (by simp [hw'])).no_blank, ((hc p hp).2.2 w hw').1⟩⟩)
  have hbar : 124 ∉ join [32] (g :: gs ++ changes.flatMap fun p => p.1 :: p.2) := by
    intro hm
    rcases mem_join hm with h | ⟨w, hw', hm⟩
    · simp at h
    · rcases List.mem_append.1 hw' with h | h
      · exact (hchars w h).2 hm
      · obtain ⟨p, hp, h⟩ := List.mem_flatMap.1 h
        exact (hmem p hp w h).2 hm
  have hun := pieces_unique tafWords_plain hbar hpc
  rw [hcut, hun] at hsp
  simp only [List.cons.injEq] at hsp
  obtain ⟨rfl, rfl⟩ := hsp
  refine Prod.ext ?_ rfl
  simp only
  rw [← eg]
  apply restore_glue
  intro w hw'
  rcases List.mem_cons.1 hw' with rfl | hw'
  · decide
  · exact hu w hw'

end Verif.Props
