import Verif.Lemmas.TafSections
import Verif.Props.Sanitize
import Verif.Props.Sections
import Verif.Props.Time

/-
C11, C12: the sections of a TAF.
-/

namespace Verif.Props
open Spec

theorem Taf.new_sections {db : Database} {clock : Clock} {code : PyStr} {a : Args} {r : Taf}
    (h : Taf.new db clock code a = .ok r) :
    r.rawCode = normalizeCode code ∧ r.body = (tafSections (normalizeCode code)).1 ∧
    r.changesCodes = (tafSections (normalizeCode code)).2 := by
  obtain ⟨_, _, _, _, -, -, -, -, -, -, -, -, -, -, -, e1, e2, e3⟩ := Taf.new_reading h
  exact ⟨e1, e2, e3⟩

/-! ### Any text -/

theorem shown_join (ps : List PyStr) : shown (join [32] ps) = join [32] (ps.map shown) := by
  induction ps with
  | nil => rfl
  | cons p ps ih =>
    cases ps with
    | nil => rfl
    | cons q qs =>
      rw [join_cons_ne (by simp), shown_append, shown_append, ih]
      rfl

/-- C11. The sections of a TAF spell its text, the underscore being read as a blank; every change
begins with an opening word and contains no further one; and in the body an opening word follows a
blank only after `TAF`. -/
theorem C11_lossless (db : Database) (clock : Clock) (code : PyStr) (a : Args) (r : Taf)
    (h : Taf.new db clock code a = .ok r) (hb : ∀ c ∈ r.rawCode, isSpace c = true → c = 32)
    (hbar : 124 ∉ r.rawCode) :
    shown r.body ++ (if r.changesCodes = [] then [] else 32 :: r.weatherChanges) = shown r.rawCode ∧
    (∀ c ∈ r.changesCodes, Opens tafWords c ∧ ¬ Holds tafWords c) ∧
    (∀ pre post, r.body = pre ++ 32 :: post → Opens tafWords post → py!"TAF" <:+ pre) := by
  obtain ⟨e1, e2, e3⟩ := Taf.new_sections h
  rw [← e1] at e2 e3
  obtain ⟨b, cs, hs, ht⟩ := tafSections_eq r.rawCode
  rw [ht] at e2 e3
  simp only at e2 e3
  obtain ⟨h1, h2⟩ := tafCut_shown hb hbar
  have hp := pieces_cut tafWords_plain _ h2
  rw [hs] at hp
  refine ⟨?_, ?_, ?_⟩
  · have ew : r.weatherChanges = join [32] (cs.map shown) := by
      unfold Taf.weatherChanges Taf.sections
      rw [e3, show shown = fun c => replace c py!"_" py!" " from funext shown_eq]
      rfl
    rw [← h1, ← hp.spells, shown_join, e2, e3, ew, shown_replace (by simp) (by decide)]
    cases cs <;> simp [join]
  · intro c hc
    rw [e3] at hc
    exact ⟨hp.opens c hc, hp.whole c (by simp [hc])⟩
  · intro pre post e ho
    rw [e2] at e
    rcases restore_blank e with hsuf | ⟨pre', post', rfl, rfl⟩
    · exact hsuf
    · exfalso
      obtain ⟨kw, hk, hpre⟩ := ho
      exact hp.whole _ (by simp) ⟨pre', post', rfl, kw, hk, restore_prefix (tafWords_plain kw hk).no_blank hpre⟩

/-! ### Texts of words -/

theorem suffix_blank {kw u v : PyStr} (hk : 32 ∉ kw) (h : kw <:+ u ++ 32 :: v) : kw <:+ v := by
  rw [← List.reverse_prefix] at h ⊢
  rw [List.reverse_append, List.reverse_cons, List.append_assoc] at h
  exact (prefix_front (by simpa using hk)).1 (by simpa using h)

/-- A word followed by a blank, in a text of words. -/
theorem word_before {ws : List PyStr} (hw : ∀ w ∈ ws, 32 ∉ w) {kw pre post : PyStr} (hk : 32 ∉ kw)
    (e : join [32] ws = pre ++ (kw ++ 32 :: post)) : ∃ w ∈ ws, kw <:+ w := by
  induction ws generalizing pre with
  | nil => simp [join] at e
  | cons w ws ih =>
    cases ws with
    | nil =>
      exfalso
      refine hw w (by simp) ?_
      simp only [join] at e
      rw [e]; simp
    | cons v vs =>
      have e' : w ++ 32 :: join [32] (v :: vs) = (pre ++ kw) ++ 32 :: post := by
        simpa [join] using e
      rcases append_blank_inj (hw w (by simp)) e' with ⟨e1, -⟩ | ⟨pre', e1, e2⟩
      · exact ⟨w, by simp, pre, e1⟩
      · have hs : kw <:+ w ++ 32 :: pre' := ⟨pre, e1⟩
        obtain ⟨p, hp⟩ := suffix_blank hk hs
        obtain ⟨x, hx, hx'⟩ := ih (fun x hx => hw x (by simp [hx])) (pre := p) (by rw [e2, ← hp]; simp)
        exact ⟨x, by simp [hx], hx'⟩

/-- A text without blanks, in a text of words. -/
theorem word_within {ws : List PyStr} {kw pre post : PyStr} (hk : 32 ∉ kw)
    (hne : kw ≠ []) (e : join [32] ws = pre ++ (kw ++ post)) : ∃ w ∈ ws, ∃ p q, w = p ++ (kw ++ q) := by
  induction ws generalizing pre with
  | nil =>
    simp only [join, List.nil_eq, List.append_eq_nil_iff] at e
    exact absurd e.2.1 hne
  | cons w ws ih =>
    cases ws with
    | nil => exact ⟨w, by simp, pre, post, by simpa [join] using e⟩
    | cons v vs =>
      have e' : w ++ 32 :: join [32] (v :: vs) = pre ++ (kw ++ post) := by
        simpa [join] using e
      rw [List.append_eq_append_iff] at e'
      rcases e' with ⟨as, rfl, e1⟩ | ⟨bs, rfl, e1⟩
      · cases as with
        | nil =>
          exfalso
          cases kw with
          | nil => exact hne rfl
          | cons k kw =>
            simp only [List.nil_append, List.cons_append, List.cons.injEq] at e1
            exact hk (by simp [e1.1])
        | cons x as =>
          simp only [List.cons_append, List.cons.injEq] at e1
          obtain ⟨y, hy, hy'⟩ := ih (pre := as) e1.2
          exact ⟨y, by simp [hy], hy'⟩
      · have hp : kw <+: bs ++ 32 :: join [32] (v :: vs) := ⟨post, e1⟩
        obtain ⟨q, rfl⟩ := (prefix_front hk).1 hp
        exact ⟨pre ++ (kw ++ q), by simp, pre, q, rfl⟩

/-- The word does not contain `TAF_`. -/
def Clean (w : PyStr) : Prop := ∀ pre post, w ≠ pre ++ (py!"TAF_" ++ post)

theorem protect_same {ws : List PyStr} (hw : ∀ w ∈ ws, 32 ∉ w) (ht : ∀ w ∈ ws, ¬ py!"TAF" <:+ w) :
    replace (join [32] ws) py!"TAF " py!"TAF_" = join [32] ws := by
  apply replace_none
  intro pre post e
  obtain ⟨w, hm, h⟩ := word_before hw (kw := py!"TAF") (pre := pre) (post := post) (by decide) (by simpa using e)
  exact ht w hm h

theorem restore_same {ws : List PyStr} (hc : ∀ w ∈ ws, Clean w) :
    replace (join [32] ws) py!"TAF_" py!"TAF " = join [32] ws := by
  apply replace_none
  intro pre post e
  obtain ⟨w, hm, p, q, h⟩ := word_within (by decide) (by simp) e
  exact hc w hm p q h

theorem clean_of_plain {w : PyStr} (h : 95 ∉ w) : Clean w := by
  rintro pre post rfl
  exact h (by simp)

/-- The words stay proper. -/
structure Proper (ws : List PyStr) : Prop where
  unbarred : ∀ w ∈ ws, Unbarred w
  clean : ∀ w ∈ ws, Clean w
  inner : ∀ w ∈ ws.tail, ¬ py!"TAF" <:+ w

theorem joined_unbarred {w v : PyStr} (hw : Unbarred w) (hv : Unbarred v) : Unbarred (w ++ py!"_" ++ v) := by
  refine ⟨⟨by simp, ?_⟩, ?_⟩
  · intro c hc
    simp only [List.mem_append, List.mem_singleton] at hc
    rcases hc with (hc | rfl) | hc
    · exact hw.1.2 c hc
    · decide
    · exact hv.1.2 c hc
  · have h1 := hw.2
    have h2 := hv.2
    simp [h1, h2]

theorem joined_clean {w v : PyStr} (hp : isProb w v = true) (hw : Clean w) (hv : Clean v) :
    Clean (w ++ py!"_" ++ v) := by
  intro pre post e
  rw [List.append_assoc, List.append_eq_append_iff] at e
  rcases e with ⟨as, rfl, e⟩ | ⟨bs, rfl, e⟩
  · cases as with
    | nil => simp at e
    | cons x as =>
      simp only [List.cons_append, List.nil_append, List.cons.injEq] at e
      exact hv as post e.2
  · -- the occurrence begins in `w`
    by_cases h4 : 4 ≤ bs.length
    · have : py!"TAF_" <+: bs := by
        have h0 : py!"TAF_" <+: bs ++ (py!"_" ++ v) := ⟨post, e⟩
        exact List.prefix_of_prefix_length_le h0 (List.prefix_append ..) (by simpa using h4)
      obtain ⟨q, rfl⟩ := this
      exact hw pre q rfl
    · obtain ⟨p, d, t, ep, -, -⟩ := isProb_iff.1 hp
      have hl : bs = [] ∨ ∃ q, bs = q ++ [48] := by
        cases hb : bs.reverse with
        | nil => left; simpa using hb
        | cons x xs =>
          right
          have : bs = xs.reverse ++ [x] := by
            have := congrArg List.reverse hb
            simpa using this
          refine ⟨xs.reverse, ?_⟩
          rw [this] at ep
          have e2 : pre ++ xs.reverse ++ [x] = (p ++ (py!"PROB" ++ [d])) ++ [48] := by simpa using ep
          have := (List.append_inj' e2 rfl).2
          simp only [List.cons.injEq, and_true] at this
          rw [‹bs = _›, this]
      rcases hl with rfl | ⟨q, rfl⟩
      · simp at e
      · match q, h4, e with
        | [], _, e => simp at e
        | [_], _, e => simp at e
        | [_, _], _, e => simp at e
        | _ :: _ :: _ :: _, h4, _ => simp at h4

theorem joined_end {w v : PyStr} (hp : isProb w v = true) (hv : ¬ py!"TAF" <:+ v) :
    ¬ py!"TAF" <:+ w ++ py!"_" ++ v := by
  obtain ⟨p, d, t, -, rfl, -⟩ := isProb_iff.1 hp
  intro h
  exact hv (List.suffix_of_suffix_length_le h (List.suffix_append ..) (by simp))

theorem joinProb_proper {ws ws' : List PyStr} (h : joinProb ws = some ws') (hu : ∀ w ∈ ws, Unbarred w)
    (hc : ∀ w ∈ ws, Clean w) :
    (∀ w ∈ ws', Unbarred w) ∧ (∀ w ∈ ws', Clean w) ∧
    ((∀ w ∈ ws.tail, ¬ py!"TAF" <:+ w) → ∀ w ∈ ws'.tail, ¬ py!"TAF" <:+ w) ∧
    ((∀ w ∈ ws, ¬ py!"TAF" <:+ w) → ∀ w ∈ ws', ¬ py!"TAF" <:+ w) := by
  induction ws generalizing ws' with
  | nil => cases h
  | cons w1 ws ih =>
    cases ws with
    | nil => cases h
    | cons w2 ws =>
      rw [joinProb] at h
      split at h
      · next hp =>
        cases h
        refine ⟨?_, ?_, ?_, ?_⟩
        · intro w hm
          rcases List.mem_cons.1 hm with rfl | hm
          · exact joined_unbarred (hu w1 (by simp)) (hu w2 (by simp))
          · exact hu w (by simp [hm])
        · intro w hm
          rcases List.mem_cons.1 hm with rfl | hm
          · exact joined_clean hp (hc w1 (by simp)) (hc w2 (by simp))
          · exact hc w (by simp [hm])
        · intro hi w hm
          exact hi w (by simp at hm ⊢; simp [hm])
        · intro hi w hm
          rcases List.mem_cons.1 hm with rfl | hm
          · exact joined_end hp (hi w2 (by simp))
          · exact hi w (by simp [hm])
      · cases h0 : joinProb (w2 :: ws) with
        | none => rw [h0] at h; cases h
        | some ws2 =>
          rw [h0] at h
          cases h
          obtain ⟨i1, i2, -, i4⟩ := ih h0 (fun w h => hu w (List.mem_cons_of_mem _ h))
            (fun w h => hc w (List.mem_cons_of_mem _ h))
          refine ⟨?_, ?_, ?_, ?_⟩
          · intro w hm
            rcases List.mem_cons.1 hm with rfl | hm
            · exact hu w (by simp)
            · exact i1 w hm
          · intro w hm
            rcases List.mem_cons.1 hm with rfl | hm
            · exact hc w (by simp)
            · exact i2 w hm
          · intro hi
            exact i4 hi
          · intro hi w hm
            rcases List.mem_cons.1 hm with rfl | hm
            · exact hi w (by simp)
            · exact i4 (fun w h => hi w (List.mem_cons_of_mem _ h)) w hm

theorem joinProbs_proper {n : Nat} {ws : List PyStr} (h : Proper ws) : Proper (joinProbs n ws) := by
  induction n generalizing ws with
  | zero => exact h
  | succ n ih =>
    unfold joinProbs
    cases h0 : joinProb ws with
    | none => exact h
    | some ws' =>
      obtain ⟨h1, h2, h3, -⟩ := joinProb_proper h0 h.unbarred h.clean
      exact ih ⟨h1, h2, h3 h.inner⟩

/-- A first list of words, of which only the first may open, followed by parts. -/
theorem parts_pieces {kws : List PyStr} (hk : ∀ kw ∈ kws, Plain kw) (w0 : PyStr) (bs : List PyStr)
    (parts : List (PyStr × List PyStr)) (hw0 : 32 ∉ w0) (hb : ∀ w ∈ bs, 32 ∉ w ∧ ¬ Opens kws w)
    (hp : ∀ p ∈ parts, 32 ∉ p.1 ∧ Opens kws p.1 ∧ ∀ w ∈ p.2, 32 ∉ w ∧ ¬ Opens kws w) :
    Pieces kws (join [32] (w0 :: bs ++ parts.flatMap fun p => p.1 :: p.2))
      (join [32] (w0 :: bs) :: parts.map fun p => join [32] (p.1 :: p.2)) := by
  refine ⟨by simp, ?_, ?_, ?_⟩
  · have e : join [32] (w0 :: bs) :: parts.map (fun p => join [32] (p.1 :: p.2)) =
        ((w0 :: bs) :: parts.map fun p => p.1 :: p.2).map (join [32]) := by simp [Function.comp_def]
    rw [e, join_flatten]
    · simp [List.flatMap_def]
    · intro ws hws
      rcases List.mem_cons.1 hws with rfl | hws
      · simp
      · obtain ⟨p, -, rfl⟩ := List.mem_map.1 hws
        simp
  · intro q hq
    rw [List.tail_cons] at hq
    obtain ⟨p, hp', rfl⟩ := List.mem_map.1 hq
    exact (opens_join hk).2 (hp p hp').2.1
  · intro q hq
    rcases List.mem_cons.1 hq with rfl | hq
    · intro h
      obtain ⟨v, hv, ho⟩ := holds_join hk hw0 (fun v hv => (hb v hv).1) h
      exact (hb v hv).2 ho
    · obtain ⟨p, hp', rfl⟩ := List.mem_map.1 hq
      intro h
      obtain ⟨v, hv, ho⟩ := holds_join hk (hp p hp').1 (fun v hv => ((hp p hp').2.2 v hv).1) h
      exact ((hp p hp').2.2 v hv).2 ho

theorem starts_join {w : PyStr} {ws : List PyStr} {kw : PyStr} (hk : 32 ∉ kw) :
    startsWith (join [32] (w :: ws)) kw = startsWith w kw := by
  unfold startsWith
  rw [Bool.eq_iff_iff, List.isPrefixOf_iff_prefix, List.isPrefixOf_iff_prefix]
  cases ws with
  | nil => exact Iff.rfl
  | cons v vs =>
    rw [join_cons_ne (by simp), List.append_assoc]
    exact prefix_front hk

/-- The text that is cut, when the first word is `TAF`. -/
theorem tafCut_taf {ws : List PyStr} (hp : Proper ws) {s : PyStr} {rest : List PyStr}
    (e : joinProbs 5 ws = py!"TAF" :: s :: rest) :
    tafCut (join [32] ws) = join [32] ((py!"TAF_" ++ s) :: rest) := by
  have hs : ∀ w ∈ ws, Solid w := fun w hw c hc => (hp.unbarred w hw).1.2 c hc |>.1
  have hq := joinProbs_proper (n := 5) hp
  rw [e] at hq
  unfold tafCut
  rw [C55_change_indicator_words ws hs, e, starts_join (by decide), if_pos (by decide)]
  have e1 : join [32] (py!"TAF" :: s :: rest) = py!"TAF " ++ join [32] (s :: rest) := by
    rw [join_cons_ne (by simp)]; simp
  rw [e1, replace_hit (by simp), protect_same (ws := s :: rest)
    (fun w hw => (hq.unbarred w (List.mem_cons_of_mem _ hw)).no_blank) (fun w hw => hq.inner w hw)]
  cases rest <;> simp [join]

/-- The text that is cut, when the first word does not end with `TAF`. -/
theorem tafCut_other {ws : List PyStr} (hp : Proper ws) {w0 : PyStr} {rest : List PyStr}
    (e : joinProbs 5 ws = w0 :: rest) (h0 : ¬ py!"TAF" <:+ w0) :
    tafCut (join [32] ws) = join [32] (w0 :: rest) := by
  have hs : ∀ w ∈ ws, Solid w := fun w hw c hc => (hp.unbarred w hw).1.2 c hc |>.1
  have hq := joinProbs_proper (n := 5) hp
  rw [e] at hq
  unfold tafCut
  rw [C55_change_indicator_words ws hs, e]
  split
  · apply protect_same (fun w hw => (hq.unbarred w hw).no_blank)
    intro w hw
    rcases List.mem_cons.1 hw with rfl | hw
    · exact h0
    · exact hq.inner w hw
  · rfl

/-- The sections of a text of words. -/
theorem tafSections_text {ws : List PyStr} {w0 : PyStr}
    {bs : List PyStr} {changes : List (PyStr × List PyStr)}
    (hw : ∀ w ∈ ws, Unbarred w ∧ 95 ∉ w) (hin : ∀ w ∈ ws.tail, ¬ py!"TAF" <:+ w)
    (e : joinProbs 5 ws = w0 :: bs ++ changes.flatMap fun p => p.1 :: p.2)
    (h0 : ¬ py!"TAF" <:+ w0 ∧ (∀ w ∈ bs, ¬ Opens tafWords w) ∨
      w0 = py!"TAF" ∧ bs ≠ [] ∧ ∀ w ∈ bs.tail, ¬ Opens tafWords w)
    (hc : ∀ p ∈ changes, Opens tafWords p.1 ∧ ∀ w ∈ p.2, ¬ Opens tafWords w) :
    normalizeCode (join [32] ws) = join [32] ws ∧
    tafSections (join [32] ws) = (join [32] (w0 :: bs), changes.map fun p => join [32] (p.1 :: p.2)) := by
  have hp : Proper ws := ⟨fun w h => (hw w h).1, fun w h => clean_of_plain (hw w h).2, hin⟩
  have hq := joinProbs_proper (n := 5) hp
  have hne : ws ≠ [] := by
    rintro rfl
    simp [joinProbs, joinProb] at e
  refine ⟨normalizeCode_join hne fun w h => (hw w h).1.1, ?_⟩
  obtain ⟨b, cs, hs, ht⟩ := tafSections_eq (join [32] ws)
  rw [ht]
  rw [e] at hq
  have hparts : ∀ p ∈ changes, 32 ∉ p.1 ∧ Opens tafWords p.1 ∧ ∀ w ∈ p.2, 32 ∉ w ∧ ¬ Opens tafWords w := by
    intro p hpm
    refine ⟨(hq.unbarred p.1 ?_).no_blank, (hc p hpm).1, fun w hw' => ⟨(hq.unbarred w ?_).no_blank, (hc p hpm).2 w hw'⟩⟩
    · simp only [List.mem_append, List.mem_flatMap]
      exact .inr ⟨p, hpm, by simp⟩
    · simp only [List.mem_append, List.mem_flatMap]
      exact .inr ⟨p, hpm, by simp [hw']⟩
  rcases h0 with ⟨h0, hb⟩ | ⟨rfl, hb0, hb⟩
  · have hcut := tafCut_other hp (rest := bs ++ changes.flatMap fun p => p.1 :: p.2) e h0
    have hpc := parts_pieces tafWords_plain w0 bs changes (hq.unbarred w0 (by simp)).no_blank
      (fun w hw' => ⟨(hq.unbarred w (by simp [hw'])).no_blank, hb w hw'⟩) hparts
    have hun := pieces_unique tafWords_plain (no_bar_join hq.unbarred) hpc
    rw [hcut] at hs
    rw [List.cons_append] at hun
    rw [hun] at hs
    simp only [List.cons.injEq] at hs
    obtain ⟨rfl, rfl⟩ := hs
    refine Prod.ext ?_ rfl
    simp only
    apply restore_same
    intro w hw'
    exact hq.clean w (by rw [List.cons_append]; rcases List.mem_cons.1 hw' with rfl | h <;> simp [*])
  · obtain ⟨s, bs, rfl⟩ : ∃ s t, bs = s :: t := by
      cases bs with
      | nil => exact absurd rfl hb0
      | cons s t => exact ⟨s, t, rfl⟩
    have hcut := tafCut_taf hp (s := s) (rest := bs ++ changes.flatMap fun p => p.1 :: p.2) e
    have hs0 := hq.unbarred s (by simp)
    have hpc := parts_pieces tafWords_plain (py!"TAF_" ++ s) bs changes
      (by have := hs0.no_blank; simp [this])
      (fun w hw' => ⟨(hq.unbarred w (by simp [hw'])).no_blank, hb w hw'⟩) hparts
    have hbar : 124 ∉ join [32] ((py!"TAF_" ++ s) :: bs ++ changes.flatMap fun p => p.1 :: p.2) := by
      apply no_bar_join
      intro w hw'
      rw [List.cons_append] at hw'
      rcases List.mem_cons.1 hw' with rfl | hw'
      · refine ⟨⟨by simp, ?_⟩, ?_⟩
        · intro c hc'
          rcases List.mem_append.1 hc' with h | h
          · simp only [List.mem_cons, List.not_mem_nil, or_false] at h
            rcases h with rfl | rfl | rfl | rfl <;> decide
          · exact hs0.1.2 c h
        · have := hs0.2
          simp [this]
      · exact hq.unbarred w (by simp only [List.cons_append, List.mem_cons]; exact .inr (.inr hw'))
    have hun := pieces_unique tafWords_plain hbar hpc
    rw [hcut] at hs
    rw [List.cons_append] at hun
    rw [hun] at hs
    simp only [List.cons.injEq] at hs
    obtain ⟨rfl, rfl⟩ := hs
    refine Prod.ext ?_ rfl
    simp only
    have e4 : join [32] ((py!"TAF_" ++ s) :: bs) = py!"TAF_" ++ join [32] (s :: bs) := by
      cases bs <;> simp [join]
    rw [e4, replace_hit (by simp), restore_same]
    · rw [join_cons_ne (ws := s :: bs) (by simp)]; simp
    · intro w hw'
      refine hq.clean w ?_
      simp only [List.cons_append, List.mem_cons, List.mem_append] at hw' ⊢
      rcases hw' with h | h
      · exact .inr (.inl h)
      · exact .inr (.inr (.inl h))

/-- C11. The text of a TAF is a list of words; the first five pairs of a probability and TEMPO count
as one word each. If it consists of a body, whose words open no change (save the first one, and the
one after `TAF`), and of changes, each opened by a word with FM, TEMPO, BECMG or PROB and continued
by words that open nothing, then the sections are exactly these. -/
theorem C11_sections (db : Database) (clock : Clock) (a : Args) (ws : List PyStr) (w0 : PyStr)
    (bs : List PyStr) (changes : List (PyStr × List PyStr))
    (hw : ∀ w ∈ ws, Unbarred w ∧ 95 ∉ w) (hin : ∀ w ∈ ws.tail, ¬ py!"TAF" <:+ w)
    (e : joinProbs 5 ws = w0 :: bs ++ changes.flatMap fun p => p.1 :: p.2)
    (h0 : ¬ py!"TAF" <:+ w0 ∧ (∀ w ∈ bs, ¬ Opens tafWords w) ∨
      w0 = py!"TAF" ∧ bs ≠ [] ∧ ∀ w ∈ bs.tail, ¬ Opens tafWords w)
    (hc : ∀ p ∈ changes, Opens tafWords p.1 ∧ ∀ w ∈ p.2, ¬ Opens tafWords w) (r : Taf)
    (h : Taf.new db clock (join [32] ws) a = .ok r) :
    r.body = join [32] (w0 :: bs) ∧
    r.changesCodes = changes.map fun p => join [32] (p.1 :: p.2) := by
  obtain ⟨-, e2, e3⟩ := Taf.new_sections h
  obtain ⟨hn, ht⟩ := tafSections_text hw hin e h0 hc
  rw [hn, ht] at e2 e3
  exact ⟨e2, e3⟩

/-! ### Stations whose code begins with FM -/

theorem joinProbs_cons {w : PyStr} (hp : ∀ v, isProb w v = false) (n : Nat) (ws : List PyStr) :
    joinProbs n (w :: ws) = w :: joinProbs n ws := by
  have h1 : ∀ ws, joinProb (w :: ws) = (joinProb ws).map (w :: ·) := by
    intro ws
    cases ws with
    | nil => rfl
    | cons v ws => rw [joinProb, hp, if_neg (by simp)]
  induction n generalizing ws with
  | zero => rfl
  | succ n ih =>
    unfold joinProbs
    rw [h1]
    cases joinProb ws with
    | none => rfl
    | some ws' => exact ih ws'

theorem not_prob_short {w : PyStr} (h : w.length < 6) (v : PyStr) : isProb w v = false := by
  rw [Bool.eq_false_iff]
  intro hp
  obtain ⟨p, d, t, rfl, -⟩ := isProb_iff.1 hp
  simp at h
  omega

/-- Nothing, or something after a blank. -/
def Next (x : PyStr) : Prop := x = [] ∨ ∃ t, x = 32 :: t

theorem next_join (ws : List PyStr) (w : PyStr) : ∃ x, Next x ∧ join [32] (w :: ws) = w ++ x := by
  cases ws with
  | nil => exact ⟨[], .inl rfl, by simp [join]⟩
  | cons v vs =>
    exact ⟨32 :: join [32] (v :: vs), .inr ⟨_, rfl⟩, by rw [join_cons_ne (by simp)]; simp⟩

theorem next_replace {x new : PyStr} {old : PyStr} (ho : 84 :: old ≠ []) (h : Next x) :
    Next (replace x (84 :: old) new) := by
  rcases h with rfl | ⟨t, rfl⟩
  · exact .inl (replace_nil ho)
  · refine .inr ⟨_, replace_miss ?_⟩
    rw [List.cons_prefix_cons]
    rintro ⟨h, -⟩
    exact absurd h (by decide)

/-- A station that begins with FM contains nothing to be replaced. -/
theorem replace_station {a b c : Nat} {new x : PyStr} (h : Next x) :
    replace (py!"FM" ++ [a, b] ++ x) (py!"TAF" ++ [c]) new =
      py!"FM" ++ [a, b] ++ replace x (py!"TAF" ++ [c]) new := by
  have m : ∀ (d : Nat) (t : PyStr), ¬ py!"TAF" ++ [c] <+: d :: t →
      replace (d :: t) (py!"TAF" ++ [c]) new = d :: replace t (py!"TAF" ++ [c]) new :=
    fun d t h => replace_miss h
  have k1 : ∀ d t, d ≠ 84 → ¬ py!"TAF" ++ [c] <+: d :: t := by
    intro d t hd hp
    simp only [List.cons_append, List.cons_prefix_cons] at hp
    exact hd hp.1.symm
  have k2 : ¬ py!"TAF" ++ [c] <+: a :: b :: x := by
    intro hp
    simp only [List.cons_append, List.cons_prefix_cons] at hp
    rcases h with rfl | ⟨t, rfl⟩
    · simp at hp
    · simp [List.cons_prefix_cons] at hp
  have k3 : ¬ py!"TAF" ++ [c] <+: b :: x := by
    intro hp
    simp only [List.cons_append, List.cons_prefix_cons] at hp
    rcases h with rfl | ⟨t, rfl⟩
    · simp at hp
    · simp [List.cons_prefix_cons] at hp
  show replace (70 :: 77 :: a :: b :: x) _ _ = 70 :: 77 :: a :: b :: _
  rw [m _ _ (k1 _ _ (by decide)), m _ _ (k1 _ _ (by decide)), m _ _ k2, m _ _ k3]
  rfl

theorem next_cut {x : PyStr} (h : Next x) : ∃ y cs, splitC 124 (cut tafWords x) = y :: cs ∧ Next y := by
  rcases h with rfl | ⟨t, rfl⟩
  · exact ⟨[], [], rfl, .inl rfl⟩
  · unfold cut
    split
    · exact ⟨[], _, splitC_sep, .inl rfl⟩
    · obtain ⟨w, ws, -, e⟩ := splitC_cons (sep := 124) (c := 32) (t := cut tafWords t) (by decide)
      exact ⟨32 :: w, ws, e, .inr ⟨w, rfl⟩⟩

theorem splitC_word {w s : PyStr} (h : 124 ∉ w) {y : PyStr} {cs : List PyStr}
    (e : splitC 124 s = y :: cs) : splitC 124 (w ++ s) = (w ++ y) :: cs := by
  induction w with
  | nil => exact e
  | cons c w ih =>
    simp only [List.mem_cons, not_or] at h
    obtain ⟨u, us, e1, e2⟩ := splitC_cons (t := w ++ s) (Ne.symm h.1)
    rw [ih h.2] at e1
    simp only [List.cons.injEq] at e1
    obtain ⟨rfl, rfl⟩ := e1
    exact e2

theorem solid_of {ws : List PyStr} (hw : ∀ w ∈ ws, Unbarred w) : ∀ w ∈ ws, Solid w :=
  fun w h c hc => ((hw w h).1.2 c hc).1

theorem unbarred_taf : Unbarred py!"TAF" := by
  refine ⟨⟨by simp, ?_⟩, by decide⟩
  intro c hc
  simp only [List.mem_cons, List.not_mem_nil, or_false] at hc
  rcases hc with rfl | rfl | rfl <;> decide

theorem tafCut_words {s : PyStr} {ws : List PyStr} (hs : Unbarred s) (hsl : s.length < 6)
    (hw : ∀ w ∈ ws, Unbarred w) : ∃ ws', (∀ w ∈ ws', Solid w) ∧ joinProbs 5 ws = ws' ∧
    tafCut (join [32] (py!"TAF" :: s :: ws)) =
      py!"TAF_" ++ replace (join [32] (s :: ws')) py!"TAF " py!"TAF_" := by
  refine ⟨joinProbs 5 ws, (joinProbs_upTo (solid_of hw)).2, rfl, ?_⟩
  have hall : ∀ w ∈ py!"TAF" :: s :: ws, Unbarred w := by
    intro w h
    rcases List.mem_cons.1 h with rfl | h
    · exact unbarred_taf
    rcases List.mem_cons.1 h with rfl | h
    · exact hs
    · exact hw w h
  unfold tafCut
  rw [C55_change_indicator_words _ (solid_of hall), joinProbs_cons (not_prob_short (by simp)),
    joinProbs_cons (not_prob_short hsl), starts_join (by decide), if_pos (by decide)]
  have e1 : ∀ l, join [32] (py!"TAF" :: s :: l) = py!"TAF " ++ join [32] (s :: l) := by
    intro l
    rw [join_cons_ne (by simp)]; simp
  rw [e1, replace_hit (by simp)]

/-- C12. In a TAF of a station whose code begins with FM, written right after `TAF`, the station
stays the second word of the body, whatever words follow. -/
theorem C12_kept (db : Database) (clock : Clock) (a : Args) (x y : Nat) (ws : List PyStr)
    (hs : Unbarred (py!"FM" ++ [x, y])) (hw : ∀ w ∈ ws, Unbarred w) (r : Taf)
    (h : Taf.new db clock (join [32] (py!"TAF" :: (py!"FM" ++ [x, y]) :: ws)) a = .ok r) :
    ∃ rest, (rest = [] ∨ ∃ t, rest = 32 :: t) ∧ r.body = py!"TAF FM" ++ [x, y] ++ rest := by
  obtain ⟨-, e2, -⟩ := Taf.new_sections h
  have hall : ∀ w ∈ py!"TAF" :: (py!"FM" ++ [x, y]) :: ws, Word w := by
    intro w h
    rcases List.mem_cons.1 h with rfl | h
    · exact unbarred_taf.1
    rcases List.mem_cons.1 h with rfl | h
    · exact hs.1
    · exact (hw w h).1
  rw [normalizeCode_join (by simp) hall] at e2
  obtain ⟨b, cs, hsp, ht⟩ := tafSections_eq (join [32] (py!"TAF" :: (py!"FM" ++ [x, y]) :: ws))
  rw [ht] at e2
  simp only at e2
  obtain ⟨ws', -, -, hc⟩ := tafCut_words hs (by simp) hw
  obtain ⟨u, hu, eu⟩ := next_join ws' (py!"FM" ++ [x, y])
  rw [hc, eu, show py!"TAF " = py!"TAF" ++ [32] from rfl, replace_station hu] at hsp
  have hv := next_replace (old := py!"AF ") (new := py!"TAF_") (by simp) hu
  generalize hve : replace u (py!"TAF" ++ [32]) py!"TAF_" = v at hsp
  have hv : Next v := by rw [← hve]; exact hv
  obtain ⟨z, zs, hz, hzn⟩ := next_cut hv
  have h1 : 32 ∉ py!"TAF_" ++ (py!"FM" ++ [x, y]) := by
    have := hs.no_blank
    simp at this ⊢
    exact this
  have h2 : 124 ∉ py!"TAF_" ++ (py!"FM" ++ [x, y]) := by
    have := hs.2
    simp at this ⊢
    exact this
  rw [← List.append_assoc, cut_word h1, splitC_word h2 hz] at hsp
  simp only [List.cons.injEq] at hsp
  obtain ⟨rfl, -⟩ := hsp
  refine ⟨replace z py!"TAF_" py!"TAF ", next_replace (old := py!"AF_") (by simp) hzn, ?_⟩
  rw [e2, List.append_assoc, replace_hit (by simp), show py!"TAF_" = py!"TAF" ++ [95] from rfl,
    replace_station hzn]
  simp

/-- C12, the unrestricted claim is false. After a modifier the text is cut at such a station: the
body is only `TAF AMD` or `TAF COR`, whatever words follow. -/
theorem C12_lost (db : Database) (clock : Clock) (a : Args) (m : PyStr) (x y : Nat) (ws : List PyStr)
    (hm : m = py!"AMD" ∨ m = py!"COR") (hs : Unbarred (py!"FM" ++ [x, y])) (hw : ∀ w ∈ ws, Unbarred w)
    (r : Taf) (h : Taf.new db clock (join [32] (py!"TAF" :: m :: (py!"FM" ++ [x, y]) :: ws)) a = .ok r) :
    r.body = py!"TAF " ++ m := by
  have hmu : Unbarred m ∧ m.length = 3 ∧ 84 ∉ m := by
    rcases hm with rfl | rfl
    all_goals
      refine ⟨⟨⟨by simp, ?_⟩, by decide⟩, rfl, by decide⟩
      intro c hc
      simp only [List.mem_cons, List.not_mem_nil, or_false] at hc
      rcases hc with rfl | rfl | rfl <;> decide
  obtain ⟨hmu, hml, hmt⟩ := hmu
  have hw' : ∀ w ∈ (py!"FM" ++ [x, y]) :: ws, Unbarred w := by
    intro w h
    rcases List.mem_cons.1 h with rfl | h
    · exact hs
    · exact hw w h
  obtain ⟨-, e2, -⟩ := Taf.new_sections h
  have hall : ∀ w ∈ py!"TAF" :: m :: (py!"FM" ++ [x, y]) :: ws, Word w := by
    intro w h
    rcases List.mem_cons.1 h with rfl | h
    · exact unbarred_taf.1
    rcases List.mem_cons.1 h with rfl | h
    · exact hmu.1
    · exact (hw' w h).1
  rw [normalizeCode_join (by simp) hall] at e2
  obtain ⟨b, cs, hsp, ht⟩ := tafSections_eq (join [32] (py!"TAF" :: m :: (py!"FM" ++ [x, y]) :: ws))
  rw [ht] at e2
  simp only at e2
  obtain ⟨ws', -, ej, hc⟩ := tafCut_words hmu (by omega) hw'
  rw [joinProbs_cons (not_prob_short (by simp))] at ej
  have miss : ∀ (old new w t : PyStr), 84 ∉ w → replace (w ++ t) (84 :: old) new = w ++ replace t (84 :: old) new := by
    intro old new w t hw
    induction w with
    | nil => rfl
    | cons c w ih =>
      simp only [List.mem_cons, not_or] at hw
      rw [List.cons_append, replace_miss, ih hw.2, List.cons_append]
      rw [List.cons_prefix_cons]
      exact fun h => hw.1 h.1
  subst ej
  obtain ⟨u, hu, eu⟩ := next_join (joinProbs 5 ws) (py!"FM" ++ [x, y])
  rw [hc, join_cons_ne (by simp), eu, show py!"TAF " = py!"TAF" ++ [32] from rfl, List.append_assoc,
    show py!"TAF" ++ [32] = 84 :: py!"AF " from rfl, miss _ _ _ _ hmt,
    miss _ _ [32] _ (by decide), show 84 :: py!"AF " = py!"TAF" ++ [32] from rfl, replace_station hu] at hsp
  have h1 : 32 ∉ py!"TAF_" ++ m := by
    have := hmu.no_blank
    simp [this]
  have h2 : 124 ∉ py!"TAF_" ++ m := by
    have := hmu.2
    simp [this]
  rw [← List.append_assoc, cut_word h1] at hsp
  have e3 : ∀ t, splitC 124 (cut tafWords ([32] ++ (py!"FM" ++ [x, y] ++ t))) =
      [] :: splitC 124 (cut tafWords (py!"FM" ++ [x, y] ++ t)) := by
    intro t
    rw [List.singleton_append]
    conv => lhs; unfold cut
    rw [if_pos, splitC_sep]
    refine ⟨rfl, opensB_iff.2 ⟨py!"FM", by decide, [x, y] ++ t, by simp⟩⟩
  rw [splitC_word h2 (e3 _)] at hsp
  simp only [List.append_nil, List.cons.injEq] at hsp
  obtain ⟨rfl, -⟩ := hsp
  rw [e2, replace_hit (by simp)]
  congr 1
  have := miss py!"AF_" py!"TAF " m [] hmt
  rw [List.append_nil, replace_nil (by simp), List.append_nil] at this
  exact this

/-! ### Cases -/

/-- Case for `C11_lossless` and `C11_sections`: a body, four changes, one of them a pair. -/
example : (tafOk sampleClock
      py!"TAF FMMI 011700Z 0118/0218 23005KT 9999 FM012200 24004KT TEMPO 0200/0204 RA PROB30 TEMPO 0206/0208 TS PROB40 0210/0212 SHRA").map
      (fun r => (r.body, r.changesCodes, r.weatherChanges)) =
    some (py!"TAF FMMI 011700Z 0118/0218 23005KT 9999",
      [py!"FM012200 24004KT", py!"TEMPO 0200/0204 RA", py!"PROB30_TEMPO 0206/0208 TS",
       py!"PROB40 0210/0212 SHRA"],
      py!"FM012200 24004KT TEMPO 0200/0204 RA PROB30 TEMPO 0206/0208 TS PROB40 0210/0212 SHRA") := by
  decide +kernel

/-- The hypotheses of `C11_sections` in that case. -/
example : joinProbs 5 (splitC 32
      py!"TAF FMMI 011700Z 0118/0218 9999 FM012200 24004KT TEMPO 0200/0204 RA PROB30 TEMPO 0206/0208 TS") =
    py!"TAF" :: [py!"FMMI", py!"011700Z", py!"0118/0218", py!"9999"] ++
      [(py!"FM012200", [py!"24004KT"]), (py!"TEMPO", [py!"0200/0204", py!"RA"]),
       (py!"PROB30_TEMPO", [py!"0206/0208", py!"TS"])].flatMap fun p => p.1 :: p.2 := by
  decide +kernel

/-- The body may contain an opening word after a blank: here after a word that ends with `TAF`. -/
example : (tafOk sampleClock py!"TAF SKBO XTAF TEMPO 2000 TEMPO 3000").map
    (fun r => (r.body, r.changesCodes)) = some (py!"TAF SKBO XTAF TEMPO 2000", [py!"TEMPO 3000"]) := by
  decide +kernel

/-- The body may contain an underscore that the text does not: a pair right after `TAF`. -/
example : (tafOk sampleClock py!"TAF PROB30 TEMPO 2000").map (fun r => (r.body, r.changesCodes)) =
    some (py!"TAF PROB30_TEMPO 2000", []) := by decide +kernel

/-- The sixth pair is cut in two. -/
example : (tafOk sampleClock
      py!"TAF SKBO 011700Z 0118/0218 PROB30 TEMPO A PROB30 TEMPO B PROB30 TEMPO C PROB30 TEMPO D PROB30 TEMPO E PROB30 TEMPO F").map
      (fun r => r.changesCodes.map (·.take 12)) =
    some [py!"PROB30_TEMPO", py!"PROB30_TEMPO", py!"PROB30_TEMPO", py!"PROB30_TEMPO", py!"PROB30_TEMPO",
      py!"PROB30", py!"TEMPO F"] := by decide +kernel

/-- Cases for `C12_kept` and `C12_lost`: with the modifier the station is lost. -/
example : (tafOk sampleClock py!"TAF FMMI 011700Z 0118/0218 9999 TEMPO 0200/0204 RA").map
    (fun r => (r.body, r.changesCodes)) =
    some (py!"TAF FMMI 011700Z 0118/0218 9999", [py!"TEMPO 0200/0204 RA"]) := by decide +kernel
example : (tafOk sampleClock py!"TAF AMD FMMI 23005KT 9999").map
    (fun r => (r.body, r.changesCodes, r.station.code)) =
    some (py!"TAF AMD", [py!"FMMI 23005KT 9999"], Option.none) := by decide +kernel

/-- With a valid period such a TAF is refused: the period is set on a change without indicator. -/
example : tafErr py!"TAF AMD FMMI 011700Z 0118/0218 9999" = some .attribute := by decide +kernel

end Verif.Props
