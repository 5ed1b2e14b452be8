import Verif.Lemmas.Sanitize
import Verif.Lemmas.Sections

/-
C55: the rewriting of a text before it is split into groups.
-/

namespace Verif.Props
open Spec

/-- C55, visibility. -/
theorem C55_visibility (s : PyStr) : UpTo visRule 3 s (sanitizeVisibility s) :=
  sanVis_implements.loop (fun s => by
    unfold sanVisStep
    cases sanVisRE.search s <;> rfl) 3 s

/-- C55, wind shear. -/
theorem C55_windshear (s : PyStr) :
    ∃ t, Everywhere wsAllRule s t ∧ UpTo wsRule 3 t (sanitizeWindshear s) :=
  ⟨_, sanWsAll_implements.everywhere (fun _ => rfl) s,
    sanWs_implements.loop (fun s => by
      unfold sanWsStep
      cases sanWsRE.search s <;> rfl) 3 _⟩

/-- C55, change indicators. -/
theorem C55_change_indicator (s : PyStr) : UpTo probRule 5 s (sanitizeChangeIndicator s) :=
  sanProb_implements.loop (fun s => by
    unfold sanProbStep
    cases sanProbRE.search s <;> rfl) 5 s

/-! ### The specification leaves no choice -/

theorem exact_visRule : Exact visRule := by
  rintro o post new o' post' new' e ⟨a, ds, b, x, y, tail, rfl, -, -, hds, hb, -, -, ht, rfl⟩
    ⟨a', ds', b', x', y', tail', rfl, -, -, hds', hb', -, -, ht', rfl⟩
  have hb0 : isDigit b = false := by
    rw [Bool.eq_false_iff]; intro h; rw [digit_not_space h] at hb; cases hb
  have hb0' : isDigit b' = false := by
    rw [Bool.eq_false_iff]; intro h; rw [digit_not_space h] at hb'; cases hb'
  simp only [List.cons_append, List.append_assoc, List.cons.injEq, List.nil_append] at e
  obtain ⟨rfl, e⟩ := e
  have h1 := congrArg (List.takeWhile isDigit) e
  rw [List.takeWhile_append_of_pos hds, List.takeWhile_append_of_pos hds'] at h1
  simp only [List.takeWhile_cons, hb0, hb0', Bool.false_eq_true, if_false, List.append_nil] at h1
  subst h1
  rw [List.append_cancel_left_eq] at e
  simp only [List.cons.injEq, true_and] at e
  obtain ⟨rfl, rfl, rfl, e⟩ := e
  suffices h : tail = tail' by rw [h]; exact ⟨rfl, rfl⟩
  rcases ht with ⟨rfl, hp⟩ | ⟨c, rfl, hc⟩ <;> rcases ht' with ⟨rfl, hp'⟩ | ⟨c', rfl, hc'⟩
  · rfl
  · rw [List.nil_append] at e
    have := hp c' (by rw [e]; rfl)
    rw [hc'] at this; cases this
  · rw [List.nil_append] at e
    have := hp' c (by rw [← e]; rfl)
    rw [hc] at this; cases this
  · simp only [List.cons_append, List.cons.injEq] at e
    rw [e.1]

theorem exact_wsAllRule : Exact wsAllRule := by
  rintro o post new o' post' new' e ⟨a, b, rfl, -, -, rfl⟩ ⟨a', b', rfl, -, -, rfl⟩
  simp only [List.cons_append, List.cons.injEq, List.nil_append, true_and] at e
  obtain ⟨rfl, rfl, -⟩ := e
  exact ⟨rfl, rfl⟩

theorem exact_probRule : Exact probRule := by
  rintro o post new o' post' new' e ⟨a, b, rfl, -, -, rfl⟩ ⟨a', b', rfl, -, -, rfl⟩
  simp only [List.cons_append, List.cons.injEq, List.nil_append, true_and] at e
  obtain ⟨rfl, rfl, -⟩ := e
  exact ⟨rfl, rfl⟩

theorem exact_wsRule : Exact wsRule := by
  have hW : isDigit 87 = false := by decide +kernel
  rintro o post new o' post' new' e ⟨a, wy, x, y, side, rfl, -, hwy, hx, hy, hs, rfl⟩
    ⟨a', wy', x', y', side', rfl, -, hwy', hx', hy', hs', rfl⟩
  simp only [List.cons_append, List.append_assoc, List.cons.injEq, List.nil_append, true_and] at e
  obtain ⟨rfl, e⟩ := e
  have key : wy = wy' ∧ x = x' ∧ y = y' ∧ side ++ post = side' ++ post' := by
    rcases hwy with rfl | rfl <;> rcases hwy' with rfl | rfl <;>
      simp only [List.cons_append, List.cons.injEq, List.nil_append, true_and] at e
    · exact ⟨rfl, e⟩
    · rw [e.1, hW] at hx; cases hx
    · rw [← e.1, hW] at hx'; cases hx'
    · exact ⟨rfl, e⟩
  clear e
  obtain ⟨rfl, rfl, rfl, e⟩ := key
  suffices h : side = side' by rw [h]; exact ⟨rfl, rfl⟩
  rcases hs with ⟨rfl, hp⟩ | ⟨c, hc, rfl⟩ <;> rcases hs' with ⟨rfl, hp'⟩ | ⟨c', hc', rfl⟩
  · rfl
  · rw [List.nil_append] at e
    exact absurd hc' (hp c' (by rw [e]; rfl))
  · rw [List.nil_append] at e
    exact absurd hc (hp' c (by rw [← e]; rfl))
  · simp only [List.cons_append, List.cons.injEq] at e
    rw [e.1]

theorem first_unique {R : Rule} (hR : Exact R) {s t u : PyStr} (h1 : First R s t) (h2 : First R s u) :
    t = u := by
  obtain ⟨pre, o, post, new, e, hr, rfl, hm⟩ := h1
  obtain ⟨pre', o', post', new', e', hr', rfl, hm'⟩ := h2
  have l1 := hm _ _ _ _ e' hr'
  have l2 := hm' _ _ _ _ e hr
  have l3 : pre.length = pre'.length := by omega
  have e3 := e.symm.trans e'
  obtain ⟨rfl, e4⟩ := List.append_inj e3 l3
  obtain ⟨rfl, rfl⟩ := hR _ _ _ _ _ _ e4 hr hr'
  rw [List.append_cancel_left_eq] at e4
  rw [e4]

theorem absent_first {R : Rule} {s t : PyStr} (h1 : Absent R s) (h2 : First R s t) : False := by
  obtain ⟨pre, o, post, new, e, hr, -⟩ := h2
  exact h1 _ _ _ _ e hr

/-- Two results of a limited rewriting agree. -/
theorem C55_upTo_unique {R : Rule} (hR : Exact R) {n : Nat} {s t u : PyStr} (h1 : UpTo R n s t)
    (h2 : UpTo R n s u) : t = u := by
  induction h1 generalizing u with
  | stop s =>
    cases h2 with
    | stop => rfl
    | done => rfl
  | done h =>
    cases h2 with
    | stop => rfl
    | done => rfl
    | step hf _ => exact (absent_first h hf).elim
  | step hf _ ih =>
    cases h2 with
    | done h => exact (absent_first h hf).elim
    | step hf' h' =>
      cases first_unique hR hf hf'
      exact ih h'

/-- Two results of a rewriting everywhere agree. -/
theorem C55_everywhere_unique {R : Rule} (hR : Exact R) (hne : ∀ o post new, R o post new → o ≠ [])
    {s t u : PyStr} (h1 : Everywhere R s t) (h2 : Everywhere R s u) : t = u := by
  induction h1 generalizing u with
  | nil =>
    generalize hs : ([] : PyStr) = s at h2
    cases h2 with
    | nil => rfl
    | skip => cases hs
    | hit hr _ => exact absurd (List.append_eq_nil_iff.1 hs.symm).1 (hne _ _ _ hr)
  | @skip c t t' hn _ ih =>
    generalize hs : c :: t = s at h2
    cases h2 with
    | nil => cases hs
    | skip hn' h' =>
      cases hs
      rw [ih h']
    | hit hr _ => exact absurd hr (hn _ _ _ hs)
  | @hit o post new post' hr _ ih =>
    generalize hs : o ++ post = s at h2
    cases h2 with
    | nil => exact absurd (List.append_eq_nil_iff.1 hs).1 (hne _ _ _ hr)
    | skip hn' h' => exact absurd hr (hn' _ _ _ hs.symm)
    | hit hr' h' =>
      obtain ⟨rfl, rfl⟩ := hR _ _ _ _ _ _ hs hr hr'
      rw [List.append_cancel_left_eq] at hs
      subst hs
      rw [ih h']

/-! ### What the rewriting leaves alone -/

theorem upTo_absent {R : Rule} {n : Nat} {s t : PyStr} (h : UpTo R n s t) (ha : Absent R s) : t = s := by
  cases h with
  | stop => rfl
  | done => rfl
  | step hf _ => exact (absent_first ha hf).elim

theorem everywhere_absent {R : Rule} {s t : PyStr} (h : Everywhere R s t) (ha : Absent R s) : t = s := by
  induction h with
  | nil => rfl
  | @skip c t t' _ _ ih =>
    rw [ih]
    intro pre o post new e
    exact ha (c :: pre) o post new (by rw [e]; rfl)
  | hit hr _ _ => exact absurd hr (ha [] _ _ _ rfl)

/-- C55. A text without such groups is left alone. -/
theorem C55_unchanged (s : PyStr) :
    (Absent visRule s → sanitizeVisibility s = s) ∧
    (Absent wsAllRule s → Absent wsRule s → sanitizeWindshear s = s) ∧
    (Absent probRule s → sanitizeChangeIndicator s = s) := by
  refine ⟨upTo_absent (C55_visibility s), ?_, upTo_absent (C55_change_indicator s)⟩
  intro h1 h2
  obtain ⟨t, ht, hu⟩ := C55_windshear s
  cases everywhere_absent ht h1
  exact upTo_absent hu h2

/-- The characters of a text other than white space and `_`. -/
def solid (s : PyStr) : PyStr := s.filter fun c => !isSpace c && c != 95

theorem solid_append (a b : PyStr) : solid (a ++ b) = solid a ++ solid b := List.filter_append ..

theorem first_solid {R : Rule} (h : ∀ o post new, R o post new → solid new = solid o) {s t : PyStr}
    (hf : First R s t) : solid t = solid s := by
  obtain ⟨pre, o, post, new, rfl, hr, rfl, -⟩ := hf
  simp only [solid_append, h _ _ _ hr]

theorem upTo_solid {R : Rule} (h : ∀ o post new, R o post new → solid new = solid o) {n : Nat}
    {s t : PyStr} (hu : UpTo R n s t) : solid t = solid s := by
  induction hu with
  | stop => rfl
  | done => rfl
  | step hf _ ih => rw [ih, first_solid h hf]

theorem first_sub {R : Rule} (h : ∀ o post new, R o post new → (solid new).Sublist (solid o))
    {s t : PyStr} (hf : First R s t) : (solid t).Sublist (solid s) := by
  obtain ⟨pre, o, post, new, rfl, hr, rfl, -⟩ := hf
  simp only [solid_append]
  exact (List.Sublist.refl _).append ((h _ _ _ hr).append (.refl _))

theorem solid_cons_space {c : Nat} {t : PyStr} (h : isSpace c = true) : solid (c :: t) = solid t := by
  simp [solid, h]

theorem solid_cons_mark {t : PyStr} : solid (95 :: t) = solid t := by
  simp [solid]

/-- C55. Only white space and `_` change; for wind shear, characters may also be dropped. -/
theorem C55_solid (s : PyStr) :
    solid (sanitizeVisibility s) = solid s ∧
    (solid (sanitizeWindshear s)).Sublist (solid s) ∧
    solid (sanitizeChangeIndicator s) = solid s := by
  refine ⟨upTo_solid ?_ (C55_visibility s), ?_, upTo_solid ?_ (C55_change_indicator s)⟩
  · rintro o post new ⟨a, ds, b, x, y, tail, rfl, ha, -, -, hb, -, -, ht, rfl⟩
    have h32 : isSpace 32 = true := by decide
    have htl : solid tail = [] := by
      rcases ht with ⟨rfl, -⟩ | ⟨c, rfl, hc⟩
      · rfl
      · rw [solid_cons_space hc]; rfl
    rw [solid_cons_space ha]
    simp only [List.cons_append, List.nil_append, List.append_assoc]
    rw [solid_cons_space h32, solid_append, solid_append, solid_cons_mark, solid_cons_space hb]
    have e1 : x :: 47 :: y :: 83 :: 77 :: tail = [x, 47, y, 83, 77] ++ tail := rfl
    have e2 : [x, 47, y, 83, 77, 32] = [x, 47, y, 83, 77] ++ [32] := rfl
    rw [e1, e2, solid_append, solid_append, htl, solid_cons_space h32]
    rfl
  · obtain ⟨t, ht, hu⟩ := C55_windshear s
    have h1 : solid t = solid s := by
      clear hu
      induction ht with
      | nil => rfl
      | @skip c t t' _ _ ih =>
        have e : ∀ u : PyStr, c :: u = [c] ++ u := fun _ => rfl
        rw [e, e t, solid_append, solid_append, ih]
      | @hit o post new post' hr _ ih =>
        rw [solid_append, solid_append, ih]
        congr 1
        obtain ⟨a, b, rfl, ha, hb, rfl⟩ := hr
        simp only [solid_append, solid_cons_space ha, solid_cons_space hb]
        decide
    rw [← h1]
    clear ht h1
    generalize sanitizeWindshear s = u at hu
    generalize 3 = n at hu
    induction hu with
    | stop => exact .refl _
    | done => exact .refl _
    | step hf _ ih =>
      refine ih.trans (first_sub ?_ hf)
      rintro o post new ⟨a, wy, x, y, side, rfl, ha, -, -, -, -, rfl⟩
      simp only [solid_append, solid_cons_space ha]
      have e : solid py!"WS_R" = solid py!"WS" ++ solid py!"R" := by decide
      rw [e]
      exact (List.sublist_append_left _ _).append (.refl _)
  · rintro o post new ⟨a, d, rfl, -, ha, rfl⟩
    have e : ∀ u : PyStr, d :: u = [d] ++ u := fun _ => rfl
    simp only [solid_append, solid_cons_space ha]
    rw [e [48], e py!"0_TEMPO", solid_append, solid_append]
    rw [show solid py!"0_TEMPO" = solid py!"0" ++ solid py!"TEMPO" by decide]
    simp only [List.append_assoc]

/-! ### Visibility in words -/

theorem isPair_iff {w v : PyStr} : isPair w v = true ↔ w ≠ [] ∧ (∀ d ∈ w, isDigit d = true) ∧
    ∃ x y t, v = x :: py!"/" ++ y :: py!"SM" ++ t ∧ isDigit x = true ∧ isDigit y = true := by
  unfold isPair
  constructor
  · intro h
    simp only [Bool.and_eq_true, decide_eq_true_eq, List.all_eq_true] at h
    refine ⟨by simpa using h.1.1, h.1.2, ?_⟩
    have h2 := h.2
    split at h2
    · next x y t =>
      simp only [Bool.and_eq_true] at h2
      exact ⟨x, y, t, rfl, h2.1, h2.2⟩
    · cases h2
  · rintro ⟨h1, h2, x, y, t, rfl, hx, hy⟩
    simp only [Bool.and_eq_true, List.all_eq_true]
    exact ⟨⟨by simpa using h1, h2⟩, by simp [hx, hy]⟩

/-- No white space. -/
def Solid (w : PyStr) : Prop := ∀ c ∈ w, isSpace c = false

theorem Solid.no_blank {w : PyStr} (h : Solid w) : 32 ∉ w := fun hx => absurd (h 32 hx) (by decide)

theorem join_space {ws : List PyStr} (h : ∀ w ∈ ws, Solid w) {c : Nat} (hc : c ∈ join [32] ws)
    (hs : isSpace c = true) : c = 32 := by
  rcases mem_join hc with hc | ⟨w, hw, hc⟩
  · simpa using hc
  · rw [h w hw c hc] at hs; cases hs

/-- A text of words begins with digits, white space and a fraction only if its first two words
are such. -/
theorem pair_of {w1 : PyStr} {ws : List PyStr} (hw : ∀ w ∈ w1 :: ws, Solid w) {ds rest : PyStr}
    {b x y : Nat} (hne : ds ≠ []) (hds : ∀ d ∈ ds, isDigit d = true) (hb : isSpace b = true)
    (hx : isDigit x = true) (hy : isDigit y = true)
    (e : join [32] (w1 :: ws) = ds ++ b :: x :: py!"/" ++ y :: py!"SM" ++ rest) :
    ∃ w2 ws', ws = w2 :: ws' ∧ isPair w1 w2 = true := by
  have hb' : b = 32 := by
    refine join_space hw ?_ hb
    rw [e]; simp
  subst hb'
  have hds' : 32 ∉ ds := fun h => absurd (digit_not_space (hds 32 h)) (by decide)
  cases ws with
  | nil =>
    simp only [join] at e
    exfalso
    refine (hw w1 (by simp)).no_blank ?_
    rw [e]; simp
  | cons w2 ws' =>
    refine ⟨w2, ws', rfl, ?_⟩
    have e1 : w1 ++ 32 :: join [32] (w2 :: ws') =
        ds ++ 32 :: (x :: py!"/" ++ y :: py!"SM" ++ rest) := by
      simpa [join] using e
    rcases append_blank_inj (hw w1 (by simp)).no_blank e1 with ⟨rfl, e2⟩ | ⟨pre', rfl, -⟩
    · rw [isPair_iff]
      refine ⟨hne, hds, x, y, ?_⟩
      have hp : x :: py!"/" ++ y :: py!"SM" <+: w2 := by
        have h0 : x :: py!"/" ++ y :: py!"SM" <+: join [32] (w2 :: ws') := ⟨rest, e2⟩
        cases ws' with
        | nil => exact h0
        | cons w3 ws'' =>
          have e3 : join [32] (w2 :: w3 :: ws'') = w2 ++ 32 :: join [32] (w3 :: ws'') := by simp [join]
          rw [e3] at h0
          refine (prefix_front ?_).1 h0
          have : ∀ d, isDigit d = true → 32 ≠ d := by
            rintro d hd rfl
            exact absurd (digit_not_space hd) (by decide)
          simp [this x hx, this y hy]
      obtain ⟨t, ht⟩ := hp
      exact ⟨t, ht.symm, hx, hy⟩
    · exact absurd (by simp : 32 ∈ w1 ++ 32 :: pre') hds'

/-- Where the rule applies in a text of words. -/
theorem vis_place {w0 : PyStr} {ws : List PyStr} (hw : ∀ w ∈ w0 :: ws, Solid w) {pre o post new : PyStr}
    (e : join [32] (w0 :: ws) = pre ++ (o ++ post)) (hr : visRule o post new) :
    ∃ w1 ws', ws = w1 :: ws' ∧
      ((pre = w0 ∧ ∃ w2 ws'', ws' = w2 :: ws'' ∧ isPair w1 w2 = true) ∨
       ∃ pre', pre = w0 ++ 32 :: pre' ∧ join [32] (w1 :: ws') = pre' ++ (o ++ post)) := by
  have hr' := hr
  obtain ⟨a, ds, b, x, y, tail, rfl, ha, hne, hds, hb, hx, hy, -, -⟩ := hr
  have ha' : a = 32 := by
    refine join_space hw ?_ ha
    rw [e]; simp
  subst ha'
  cases ws with
  | nil =>
    exfalso
    simp only [join] at e
    refine (hw w0 (by simp)).no_blank ?_
    rw [e]; simp
  | cons w1 ws' =>
    refine ⟨w1, ws', rfl, ?_⟩
    have e1 : w0 ++ 32 :: join [32] (w1 :: ws') =
        pre ++ 32 :: (ds ++ b :: x :: py!"/" ++ y :: py!"SM" ++ (tail ++ post)) := by
      simpa [join] using e
    rcases append_blank_inj (hw w0 (by simp)).no_blank e1 with ⟨rfl, e2⟩ | ⟨pre', rfl, e2⟩
    · exact .inl ⟨rfl, pair_of (fun w h => hw w (by simp at h ⊢; exact .inr h)) hne hds hb hx hy e2.symm⟩
    · exact .inr ⟨pre', rfl, by rw [e2]; simp⟩

theorem joinPair_absent {w0 : PyStr} {ws : List PyStr} (hw : ∀ w ∈ w0 :: ws, Solid w)
    (h : joinPair ws = none) : Absent visRule (join [32] (w0 :: ws)) := by
  induction ws generalizing w0 with
  | nil =>
    intro pre o post new e hr
    obtain ⟨_, _, e, -⟩ := vis_place hw e hr
    cases e
  | cons w1 ws ih =>
    intro pre o post new e hr
    obtain ⟨_, _, e0, h0⟩ := vis_place hw e hr
    cases e0
    have hws : ∀ w ∈ w1 :: ws, Solid w := fun w h => hw w (by simp at h ⊢; exact .inr h)
    rcases h0 with ⟨-, w2, ws'', rfl, hp⟩ | ⟨pre', -, e'⟩
    · simp [joinPair, hp] at h
    · refine ih hws ?_ pre' o post new e' hr
      cases ws with
      | nil => rfl
      | cons w2 ws =>
        rw [joinPair] at h
        split at h
        · cases h
        · simpa using h

theorem joinPair_solid {ws ws' : List PyStr} (hw : ∀ w ∈ ws, Solid w) (h : joinPair ws = some ws') :
    ∀ w ∈ ws', Solid w := by
  induction ws generalizing ws' with
  | nil => cases h
  | cons w1 ws ih =>
    cases ws with
    | nil => cases h
    | cons w2 ws =>
      have hws : ∀ w ∈ w2 :: ws, Solid w := fun w h => hw w (by simp at h ⊢; exact .inr h)
      rw [joinPair] at h
      split at h
      · cases h
        intro w hm
        rcases List.mem_cons.1 hm with rfl | hm
        · intro c hc
          simp only [List.mem_append, List.mem_singleton] at hc
          rcases hc with (hc | hc) | hc
          · exact hw w1 (by simp) c hc
          · subst hc; decide
          · exact hw w2 (by simp) c (List.mem_of_mem_take hc)
        · split at hm
          · exact hw w (by simp [hm])
          · rcases List.mem_cons.1 hm with rfl | hm
            · exact fun c hc => hw w2 (by simp) c (List.mem_of_mem_drop hc)
            · exact hw w (by simp [hm])
      · cases h0 : joinPair (w2 :: ws) with
        | none => rw [h0] at h; cases h
        | some ws2 =>
          rw [h0] at h
          cases h
          intro w hm
          rcases List.mem_cons.1 hm with rfl | hm
          · exact hw w (by simp)
          · exact ih hws h0 w hm

theorem joinPair_first {w0 : PyStr} {ws ws' : List PyStr} (hw : ∀ w ∈ w0 :: ws, Solid w)
    (h : joinPair ws = some ws') : First visRule (join [32] (w0 :: ws)) (join [32] (w0 :: ws')) := by
  induction ws generalizing w0 ws' with
  | nil => cases h
  | cons w1 ws ih =>
    cases ws with
    | nil => cases h
    | cons w2 ws =>
      have hws : ∀ w ∈ w1 :: w2 :: ws, Solid w := fun w h => hw w (by simp at h ⊢; exact .inr h)
      rw [joinPair] at h
      split at h
      · next hp =>
        cases h
        obtain ⟨hne, hds, x, y, t, rfl, hx, hy⟩ := isPair_iff.1 hp
        have hmin : ∀ pre' o' post' new',
            join [32] (w0 :: w1 :: (x :: py!"/" ++ y :: py!"SM" ++ t) :: ws) = pre' ++ (o' ++ post') →
            visRule o' post' new' → w0.length ≤ pre'.length := by
          intro pre' o' post' new' e hr
          obtain ⟨_, _, -, h0⟩ := vis_place hw e hr
          rcases h0 with ⟨rfl, -⟩ | ⟨pre2, rfl, -⟩
          · exact Nat.le_refl _
          · simp
        cases t with
        | cons d t =>
          rw [if_neg (by simp)]
          refine ⟨w0, 32 :: (w1 ++ 32 :: x :: py!"/" ++ y :: py!"SM" ++ []),
            join [32] ((d :: t) :: ws), _, ?_, ⟨32, w1, 32, x, y, [], rfl, by decide, hne, hds,
              by decide, hx, hy, .inl ⟨rfl, ?_⟩, rfl⟩, ?_, hmin⟩
          · cases ws <;> simp [join]
          · intro c hc
            have : c = d := by cases ws <;> simpa [join, eq_comm] using hc
            subst this
            exact hw (x :: py!"/" ++ y :: py!"SM" ++ c :: t) (by simp) c (by simp)
          · cases ws <;> simp [join]
        | nil =>
          cases ws with
          | nil =>
            refine ⟨w0, 32 :: (w1 ++ 32 :: x :: py!"/" ++ y :: py!"SM" ++ []), [], _, ?_,
              ⟨32, w1, 32, x, y, [], rfl, by decide, hne, hds, by decide, hx, hy,
              .inl ⟨rfl, by simp⟩, rfl⟩, ?_, hmin⟩
            · simp [join]
            · simp [join]
          | cons w3 ws =>
            rw [if_pos (by simp)]
            refine ⟨w0, 32 :: (w1 ++ 32 :: x :: py!"/" ++ y :: py!"SM" ++ [32]),
              join [32] (w3 :: ws), _, ?_, ⟨32, w1, 32, x, y, [32], rfl, by decide, hne, hds,
              by decide, hx, hy, .inr ⟨32, rfl, by decide⟩, rfl⟩, ?_, hmin⟩
            · simp [join]
            · simp [join]
      · next hp =>
        cases h0 : joinPair (w2 :: ws) with
        | none => rw [h0] at h; cases h
        | some ws2 =>
          rw [h0] at h
          cases h
          obtain ⟨pre, o, post, new, e, hr, e', hm⟩ := ih hws h0
          have lift : ∀ l : List PyStr, join [32] (w0 :: w1 :: l) = w0 ++ 32 :: join [32] (w1 :: l) := by
            intro l; simp [join]
          refine ⟨w0 ++ 32 :: pre, o, post, new, ?_, hr, ?_, ?_⟩
          · rw [lift, e]; simp
          · rw [lift, e']; simp
          · intro pre' o' post' new' e2 hr'
            obtain ⟨_, _, e0, h2⟩ := vis_place hw e2 hr'
            cases e0
            rcases h2 with ⟨-, _, _, e3, hp'⟩ | ⟨pre2, rfl, e3⟩
            · cases e3
              exact absurd hp' hp
            · have := hm pre2 o' post' new' e3 hr'
              simp; omega

theorem joinPairs_upTo {n : Nat} {w0 : PyStr} {ws : List PyStr} (hw : ∀ w ∈ w0 :: ws, Solid w) :
    UpTo visRule n (join [32] (w0 :: ws)) (join [32] (w0 :: joinPairs n ws)) ∧
    ∀ w ∈ joinPairs n ws, Solid w := by
  induction n generalizing ws with
  | zero => exact ⟨.stop _, fun w h => hw w (List.mem_cons_of_mem _ h)⟩
  | succ n ih =>
    unfold joinPairs
    cases h : joinPair ws with
    | none => exact ⟨.done (joinPair_absent hw h), fun w h => hw w (List.mem_cons_of_mem _ h)⟩
    | some ws' =>
      have hs := joinPair_solid (fun w h => hw w (List.mem_cons_of_mem _ h)) h
      have hs' : ∀ w ∈ w0 :: ws', Solid w := by
        intro w hm
        rcases List.mem_cons.1 hm with rfl | hm
        · exact hw w (by simp)
        · exact hs w hm
      exact ⟨.step (joinPair_first hw h) (ih hs').1, (ih hs').2⟩

/-- C55. The groups of a text of words, after the treatment of the visibility: the first three
pairs of a whole number and a fraction after the first word are joined, nothing else changes. -/
theorem C55_visibility_words (w0 : PyStr) (ws : List PyStr) (hw : ∀ w ∈ w0 :: ws, Solid w) :
    splitC 32 (sanitizeVisibility (join [32] (w0 :: ws))) = w0 :: joinPairs 3 ws := by
  obtain ⟨h1, h2⟩ := joinPairs_upTo (n := 3) hw
  rw [C55_upTo_unique exact_visRule (C55_visibility _) h1, splitC_join _ (by simp)]
  intro w hm
  rcases List.mem_cons.1 hm with rfl | hm
  · exact (hw w (by simp)).no_blank
  · exact (h2 w hm).no_blank

/-! ### Change indicators in words -/

theorem isProb_iff {w v : PyStr} : isProb w v = true ↔
    ∃ p d t, w = p ++ (py!"PROB" ++ d :: py!"0") ∧ v = py!"TEMPO" ++ t ∧ d ∈ py!"34" := by
  unfold isProb
  simp only [Bool.and_eq_true, Bool.or_eq_true, List.isSuffixOf_iff_suffix, List.isPrefixOf_iff_prefix]
  constructor
  · rintro ⟨⟨p, rfl⟩ | ⟨p, rfl⟩, t, rfl⟩
    · exact ⟨p, 51, t, rfl, rfl, by decide⟩
    · exact ⟨p, 52, t, rfl, rfl, by decide⟩
  · rintro ⟨p, d, t, rfl, rfl, hd⟩
    have : d = 51 ∨ d = 52 := by simpa using hd
    refine ⟨?_, t, rfl⟩
    rcases this with rfl | rfl
    · exact .inl ⟨p, rfl⟩
    · exact .inr ⟨p, rfl⟩

/-- Where the rule applies in a text of words. -/
theorem prob_place {w1 : PyStr} {ws : List PyStr} (hw : ∀ w ∈ w1 :: ws, Solid w) {pre o post new : PyStr}
    (e : join [32] (w1 :: ws) = pre ++ (o ++ post)) (hr : probRule o post new) :
    ∃ w2 ws', ws = w2 :: ws' ∧
      ((isProb w1 w2 = true ∧ pre.length + 6 = w1.length) ∨
       ∃ pre', pre = w1 ++ 32 :: pre' ∧ join [32] (w2 :: ws') = pre' ++ (o ++ post)) := by
  obtain ⟨a, d, rfl, hd, ha, rfl⟩ := hr
  have ha' : a = 32 := by
    refine join_space hw ?_ ha
    rw [e]; simp
  subst ha'
  have hd' : d ≠ 32 := by
    rintro rfl
    exact absurd hd (by decide)
  cases ws with
  | nil =>
    exfalso
    simp only [join] at e
    refine (hw w1 (by simp)).no_blank ?_
    rw [e]; simp
  | cons w2 ws' =>
    refine ⟨w2, ws', rfl, ?_⟩
    have e1 : w1 ++ 32 :: join [32] (w2 :: ws') =
        (pre ++ (py!"PROB" ++ d :: py!"0")) ++ 32 :: (py!"TEMPO" ++ post) := by
      simpa [join] using e
    rcases append_blank_inj (hw w1 (by simp)).no_blank e1 with ⟨e2, e3⟩ | ⟨pre', e2, e3⟩
    · left
      refine ⟨?_, by rw [← e2]; simp⟩
      have hp : py!"TEMPO" <+: w2 := by
        have h0 : py!"TEMPO" <+: join [32] (w2 :: ws') := ⟨post, e3⟩
        cases ws' with
        | nil => exact h0
        | cons w3 ws'' =>
          have e3 : join [32] (w2 :: w3 :: ws'') = w2 ++ 32 :: join [32] (w3 :: ws'') := by simp [join]
          rw [e3] at h0
          exact (prefix_front (by decide)).1 h0
      obtain ⟨t, ht⟩ := hp
      exact isProb_iff.2 ⟨pre, d, t, e2.symm, ht.symm, hd⟩
    · right
      -- the blank after `w1` lies before the occurrence
      have h6 : 32 ∉ py!"PROB" ++ d :: py!"0" := by simp [Ne.symm hd']
      rw [List.append_eq_append_iff] at e2
      rcases e2 with ⟨as, rfl, e4⟩ | ⟨bs, rfl, e4⟩
      · exfalso
        exact h6 (by rw [e4]; simp)
      · cases bs with
        | nil =>
          exfalso
          refine h6 ?_
          have : py!"PROB" ++ d :: py!"0" = 32 :: pre' := by simpa using e4.symm
          rw [this]; simp
        | cons x bs =>
          simp only [List.cons_append, List.cons.injEq] at e4
          obtain ⟨rfl, rfl⟩ := e4
          exact ⟨bs, rfl, by rw [e3]; simp⟩

theorem joinProb_absent {ws : List PyStr} (hw : ∀ w ∈ ws, Solid w)
    (h : joinProb ws = none) : Absent probRule (join [32] ws) := by
  induction ws with
  | nil =>
    rintro pre o post new e ⟨a, d, rfl, -⟩
    simp [join] at e
  | cons w1 ws ih =>
    intro pre o post new e hr
    obtain ⟨w2, ws', rfl, h0⟩ := prob_place hw e hr
    rw [joinProb] at h
    rcases h0 with ⟨hp, -⟩ | ⟨pre', -, e'⟩
    · rw [if_pos hp] at h; cases h
    · split at h
      · cases h
      · exact ih (fun w h => hw w (List.mem_cons_of_mem _ h)) (by simpa using h) pre' o post new e' hr

theorem joinProb_solid {ws ws' : List PyStr} (hw : ∀ w ∈ ws, Solid w) (h : joinProb ws = some ws') :
    ∀ w ∈ ws', Solid w := by
  induction ws generalizing ws' with
  | nil => cases h
  | cons w1 ws ih =>
    cases ws with
    | nil => cases h
    | cons w2 ws =>
      rw [joinProb] at h
      split at h
      · cases h
        intro w hm
        rcases List.mem_cons.1 hm with rfl | hm
        · intro c hc
          simp only [List.mem_append, List.mem_singleton] at hc
          rcases hc with (hc | hc) | hc
          · exact hw w1 (by simp) c hc
          · subst hc; decide
          · exact hw w2 (by simp) c hc
        · exact hw w (by simp [hm])
      · cases h0 : joinProb (w2 :: ws) with
        | none => rw [h0] at h; cases h
        | some ws2 =>
          rw [h0] at h
          cases h
          intro w hm
          rcases List.mem_cons.1 hm with rfl | hm
          · exact hw w (by simp)
          · exact ih (fun w h => hw w (List.mem_cons_of_mem _ h)) h0 w hm

theorem joinProb_ne {ws ws' : List PyStr} (h : joinProb ws = some ws') : ws' ≠ [] := by
  cases ws with
  | nil => cases h
  | cons w1 ws =>
    cases ws with
    | nil => cases h
    | cons w2 ws =>
      rw [joinProb] at h
      split at h
      · cases h; simp
      · cases h0 : joinProb (w2 :: ws) with
        | none => rw [h0] at h; cases h
        | some ws2 => rw [h0] at h; cases h; simp

theorem joinProb_first {ws ws' : List PyStr} (hw : ∀ w ∈ ws, Solid w)
    (h : joinProb ws = some ws') : First probRule (join [32] ws) (join [32] ws') := by
  induction ws generalizing ws' with
  | nil => cases h
  | cons w1 ws ih =>
    cases ws with
    | nil => cases h
    | cons w2 ws =>
      rw [joinProb] at h
      split at h
      · next hp =>
        cases h
        obtain ⟨p, d, t, rfl, rfl, hd⟩ := isProb_iff.1 hp
        have hmin : ∀ pre' o' post' new',
            join [32] ((p ++ (py!"PROB" ++ d :: py!"0")) :: (py!"TEMPO" ++ t) :: ws) = pre' ++ (o' ++ post') →
            probRule o' post' new' → p.length ≤ pre'.length := by
          intro pre' o' post' new' e hr
          obtain ⟨_, _, -, h0⟩ := prob_place hw e hr
          rcases h0 with ⟨-, h0⟩ | ⟨pre2, rfl, -⟩
          · simp at h0; omega
          · simp
        refine ⟨p, py!"PROB" ++ d :: py!"0" ++ 32 :: py!"TEMPO",
          if ws = [] then t else t ++ 32 :: join [32] ws, py!"PROB" ++ d :: py!"0_TEMPO", ?_,
          ⟨32, d, rfl, hd, by decide, rfl⟩, ?_, hmin⟩
        · cases ws <;> simp [join]
        · cases ws <;> simp [join]
      · next hp =>
        cases h0 : joinProb (w2 :: ws) with
        | none => rw [h0] at h; cases h
        | some ws2 =>
          rw [h0] at h
          cases h
          obtain ⟨pre, o, post, new, e, hr, e', hm⟩ := ih (fun w h => hw w (List.mem_cons_of_mem _ h)) h0
          have lift : ∀ l : List PyStr, l ≠ [] → join [32] (w1 :: l) = w1 ++ 32 :: join [32] l := by
            intro l hl
            rw [join_cons_ne hl]
            simp
          refine ⟨w1 ++ 32 :: pre, o, post, new, ?_, hr, ?_, ?_⟩
          · rw [lift _ (by simp), e]; simp
          · rw [lift _ (joinProb_ne h0), e']; simp
          · intro pre' o' post' new' e2 hr'
            obtain ⟨_, _, e0, h2⟩ := prob_place hw e2 hr'
            cases e0
            rcases h2 with ⟨hp', -⟩ | ⟨pre2, rfl, e3⟩
            · exact absurd hp' hp
            · have := hm pre2 o' post' new' e3 hr'
              simp; omega

theorem joinProbs_upTo {n : Nat} {ws : List PyStr} (hw : ∀ w ∈ ws, Solid w) :
    UpTo probRule n (join [32] ws) (join [32] (joinProbs n ws)) ∧ ∀ w ∈ joinProbs n ws, Solid w := by
  induction n generalizing ws with
  | zero => exact ⟨.stop _, hw⟩
  | succ n ih =>
    unfold joinProbs
    cases h : joinProb ws with
    | none => exact ⟨.done (joinProb_absent hw h), hw⟩
    | some ws' =>
      have hs := joinProb_solid hw h
      exact ⟨.step (joinProb_first hw h) (ih hs).1, (ih hs).2⟩

/-- C55. The text of words, after the treatment of the change indicators: the first five pairs of a
probability and TEMPO are joined, nothing else changes. -/
theorem C55_change_indicator_words (ws : List PyStr) (hw : ∀ w ∈ ws, Solid w) :
    sanitizeChangeIndicator (join [32] ws) = join [32] (joinProbs 5 ws) :=
  C55_upTo_unique exact_probRule (C55_change_indicator _) (joinProbs_upTo hw).1

/-- Cases: a pair in the middle, one at the end, a fourth one. -/
example : splitC 32 (sanitizeVisibility py!"METAR 1 1/2SM RA") = [py!"METAR", py!"1_1/2SM", py!"RA"] := by
  decide +kernel
example : joinPairs 3 [py!"1", py!"1/2SM", py!"RA"] = [py!"1_1/2SM", py!"RA"] := by decide +kernel
example : joinPairs 3 [py!"RA", py!"1", py!"1/2SM"] = [py!"RA", py!"1_1/2SM", []] := by decide +kernel
example : sanitizeVisibility py!"A 1 1/2SM 1 1/2SM 1 1/2SM 1 1/2SM" =
    py!"A 1_1/2SM 1_1/2SM 1_1/2SM 1 1/2SM" := by decide +kernel
example : sanitizeWindshear py!"WS ALL RWY WS RWY12L WS R30" = py!"WS_ALL_RWY WS_R12L WS_R30" := by
  decide +kernel
example : sanitizeChangeIndicator py!"TAF PROB30 TEMPO RA PROB40 TEMPO" =
    py!"TAF PROB30_TEMPO RA PROB40_TEMPO" := by decide +kernel

end Verif.Props
