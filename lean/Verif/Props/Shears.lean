import Verif.Props.Sanitize
import Verif.Spec.Report

/-
C55 for wind shear: what the treatment of the wind shear groups does to a text of words.
-/

namespace Verif.Props
open Spec

theorem join_lift {w : PyStr} {l : List PyStr} (hl : l ≠ []) : join [32] (w :: l) = w ++ 32 :: join [32] l := by
  rw [join_cons_ne hl]; simp

/-- Where a word followed by a blank lies in a text of words. -/
theorem blank_place {w1 : PyStr} {ws : List PyStr} (hw : ∀ w ∈ w1 :: ws, Solid w) {pre k m : PyStr}
    (hk : 32 ∉ k) (e : join [32] (w1 :: ws) = pre ++ (k ++ 32 :: m)) :
    ∃ w2 ws', ws = w2 :: ws' ∧
      ((pre ++ k = w1 ∧ m = join [32] (w2 :: ws')) ∨
       ∃ pre', pre = w1 ++ 32 :: pre' ∧ join [32] (w2 :: ws') = pre' ++ (k ++ 32 :: m)) := by
  cases ws with
  | nil =>
    exfalso
    simp only [join] at e
    refine (hw w1 (by simp)).no_blank ?_
    rw [e]; simp
  | cons w2 ws' =>
    refine ⟨w2, ws', rfl, ?_⟩
    have e1 : w1 ++ 32 :: join [32] (w2 :: ws') = (pre ++ k) ++ 32 :: m := by
      rw [join_lift (by simp)] at e
      simpa using e
    rcases append_blank_inj (hw w1 (by simp)).no_blank e1 with ⟨e2, e3⟩ | ⟨pre', e2, e3⟩
    · exact .inl ⟨e2, e3⟩
    · right
      rw [List.append_eq_append_iff] at e2
      rcases e2 with ⟨as, rfl, e4⟩ | ⟨bs, rfl, e4⟩
      · exfalso
        exact hk (by rw [e4]; simp)
      · cases bs with
        | nil =>
          exfalso
          refine hk ?_
          have : k = 32 :: pre' := by simpa using e4.symm
          rw [this]; simp
        | cons x bs =>
          simp only [List.cons_append, List.cons.injEq] at e4
          obtain ⟨rfl, rfl⟩ := e4
          exact ⟨bs, rfl, by rw [e3]; simp⟩

theorem prefix_word {k v : PyStr} {ws : List PyStr} (hk : 32 ∉ k) (h : k <+: join [32] (v :: ws)) : k <+: v := by
  cases ws with
  | nil => exact h
  | cons w ws =>
    rw [join_lift (by simp)] at h
    exact (prefix_front hk).1 h

/-! ### All runways -/

theorem isAll_iff {w a v : PyStr} : isAll w a v = true ↔
    (∃ p, w = p ++ py!"WS") ∧ a = py!"ALL" ∧ ∃ t, v = py!"RWY" ++ t := by
  unfold isAll
  simp only [Bool.and_eq_true, List.isSuffixOf_iff_suffix, List.isPrefixOf_iff_prefix, beq_iff_eq]
  constructor
  · rintro ⟨⟨⟨p, rfl⟩, rfl⟩, t, rfl⟩
    exact ⟨⟨p, rfl⟩, rfl, t, rfl⟩
  · rintro ⟨⟨p, rfl⟩, rfl, t, rfl⟩
    exact ⟨⟨⟨p, rfl⟩, rfl⟩, t, rfl⟩

/-- Where the rule applies in a text of words. -/
theorem all_place {w1 : PyStr} {ws : List PyStr} (hw : ∀ w ∈ w1 :: ws, Solid w) {pre o post new : PyStr}
    (e : join [32] (w1 :: ws) = pre ++ (o ++ post)) (hr : wsAllRule o post new) :
    ∃ w2 ws', ws = w2 :: ws' ∧
      ((pre.length + 2 = w1.length ∧ ∃ w3 ws'', ws' = w3 :: ws'' ∧ isAll w1 w2 w3 = true) ∨
       ∃ pre', pre = w1 ++ 32 :: pre') := by
  obtain ⟨a, b, rfl, ha, hb, rfl⟩ := hr
  have ha' : a = 32 := join_space hw (by rw [e]; simp) ha
  have hb' : b = 32 := join_space hw (by rw [e]; simp) hb
  subst ha' hb'
  have e1 : join [32] (w1 :: ws) = pre ++ (py!"WS" ++ 32 :: (py!"ALL" ++ 32 :: (py!"RWY" ++ post))) := by
    simpa using e
  obtain ⟨w2, ws', rfl, h0⟩ := blank_place hw (by decide) e1
  refine ⟨w2, ws', rfl, ?_⟩
  rcases h0 with ⟨e2, e3⟩ | ⟨pre', rfl, -⟩
  · left
    refine ⟨by rw [← e2]; simp, ?_⟩
    have hws : ∀ w ∈ w2 :: ws', Solid w := fun w h => hw w (List.mem_cons_of_mem _ h)
    have e4 : join [32] (w2 :: ws') = [] ++ (py!"ALL" ++ 32 :: (py!"RWY" ++ post)) := by
      rw [← e3]; rfl
    obtain ⟨w3, ws'', rfl, h1⟩ := blank_place hws (by decide) e4
    refine ⟨w3, ws'', rfl, ?_⟩
    rcases h1 with ⟨e5, e6⟩ | ⟨pre', e5, -⟩
    · obtain ⟨t, ht⟩ := prefix_word (k := py!"RWY") (by decide) ⟨post, e6⟩
      exact isAll_iff.2 ⟨⟨pre, e2.symm⟩, e5.symm, t, ht.symm⟩
    · simp at e5
  · exact .inr ⟨pre', rfl⟩

theorem Everywhere.skips {R : Rule} {p s t : PyStr}
    (h : ∀ pre suf o post new, p = pre ++ suf → suf ≠ [] → suf ++ s = o ++ post → ¬ R o post new)
    (hs : Everywhere R s t) : Everywhere R (p ++ s) (p ++ t) := by
  induction p with
  | nil => exact hs
  | cons c p ih =>
    refine .skip (fun o post new e => h [] (c :: p) o post new rfl (by simp) (by simpa using e)) (ih ?_)
    intro pre suf o post new e hne
    exact h (c :: pre) suf o post new (by rw [e]; rfl) hne

theorem joinAll_ne {ws : List PyStr} (h : ws ≠ []) : joinAll ws ≠ [] := by
  induction hn : ws.length using Nat.strongRecOn generalizing ws with
  | _ n ih =>
    unfold joinAll
    split
    · next w a v rest =>
      split
      · have := ih (v.drop 3 :: rest).length (by rw [← hn]; simp) (List.cons_ne_nil _ _) rfl
        split
        · next h0 => exact absurd h0 this
        · simp
      · simp
    · exact h

theorem joinAll_everywhere {ws : List PyStr} (hw : ∀ w ∈ ws, Solid w) :
    Everywhere wsAllRule (join [32] ws) (join [32] (joinAll ws)) ∧ ∀ w ∈ joinAll ws, Solid w := by
  induction hn : ws.length using Nat.strongRecOn generalizing ws with
  | _ n ih =>
    -- the rule applies nowhere within a word that is not the first of such a triple
    have skip : ∀ (w : PyStr) (l : List PyStr), (∀ x ∈ w :: l, Solid x) →
        (∀ w2 w3 ws'', l = w2 :: w3 :: ws'' → isAll w w2 w3 = false) →
        ∀ t, (l = [] → Everywhere wsAllRule w w) ∧
        (l ≠ [] → Everywhere wsAllRule (join [32] l) t →
          Everywhere wsAllRule (w ++ 32 :: join [32] l) (w ++ 32 :: t)) := by
      intro w l hl hno t
      refine ⟨?_, ?_⟩
      · rintro rfl
        have : Everywhere wsAllRule (w ++ []) (w ++ []) := by
          refine Everywhere.skips ?_ .nil
          intro pre suf o post new e hne e2 hr
          obtain ⟨w2, ws', h0, -⟩ := all_place (pre := pre) (ws := []) hl
            (by rw [← e2, ← List.append_assoc, ← e]; simp [join]) hr
          cases h0
        simpa using this
      · intro hne he
        have e0 : ∀ u, w ++ 32 :: u = (w ++ [32]) ++ u := by simp
        rw [e0 (join [32] l), e0 t]
        refine Everywhere.skips ?_ he
        intro pre suf o post new e hsuf e2 hr
        have e3 : join [32] (w :: l) = pre ++ (o ++ post) := by
          rw [join_lift hne, e0, e, ← e2]; simp
        obtain ⟨w2, ws', rfl, h0⟩ := all_place hl e3 hr
        rcases h0 with ⟨-, w3, ws'', rfl, h0⟩ | ⟨pre', rfl⟩
        · rw [hno _ _ _ rfl] at h0; cases h0
        · have h1 := congrArg List.length e
          simp only [List.length_append, List.length_cons, List.length_nil] at h1
          exact hsuf (List.length_eq_zero_iff.1 (by omega))
    cases ws with
    | nil => exact ⟨by simpa [joinAll, join] using Everywhere.nil, by simp [joinAll]⟩
    | cons w ws =>
    cases ws with
    | nil => exact ⟨by simpa [joinAll, join] using (skip w [] hw (by simp) []).1 rfl, by simpa [joinAll] using hw⟩
    | cons a ws =>
    have hws : ∀ x ∈ a :: ws, Solid x := fun x h => hw x (List.mem_cons_of_mem _ h)
    cases ws with
    | nil =>
      refine ⟨?_, by simpa [joinAll] using hw⟩
      have h1 := ih 1 (by rw [← hn]; simp) hws rfl
      have h2 := (skip w [a] hw (by simp) _).2 (by simp) h1.1
      rw [← join_lift (by simp)] at h2
      have e : joinAll [a] = [a] := by simp [joinAll]
      rw [e] at h2
      rw [show joinAll [w, a] = [w, a] by simp [joinAll], join_lift (l := [a]) (by simp)]
      rw [join_lift (by simp)] at h2
      exact h2
    | cons v rest =>
    have hrest : ∀ x ∈ rest, Solid x := fun x h => hw x (by simp [h])
    rw [joinAll]
    by_cases hp : isAll w a v = true
    · rw [if_pos hp]
      obtain ⟨⟨p, rfl⟩, rfl, t, rfl⟩ := isAll_iff.1 hp
      have hd : (py!"RWY" ++ t).drop 3 = t := rfl
      rw [hd]
      have ht : ∀ x ∈ t :: rest, Solid x := by
        intro x hx
        rcases List.mem_cons.1 hx with rfl | hx
        · exact fun c hc => hw (py!"RWY" ++ x) (by simp) c (List.mem_append_right _ hc)
        · exact hrest x hx
      obtain ⟨h1, h2⟩ := ih (rest.length + 1) (by rw [← hn]; simp) ht (by simp)
      have hne := joinAll_ne (List.cons_ne_nil t rest)
      generalize hj : joinAll (t :: rest) = j at h1 h2 hne
      cases j with
      | nil => exact absurd rfl hne
      | cons x xs =>
        refine ⟨?_, ?_⟩
        · have e1 : join [32] ((p ++ py!"WS") :: py!"ALL" :: (py!"RWY" ++ t) :: rest) =
              p ++ ((py!"WS" ++ 32 :: py!"ALL" ++ 32 :: py!"RWY") ++ join [32] (t :: rest)) := by
            cases rest <;> simp [join]
          have e2 : join [32] ((p ++ py!"WS" ++ py!"_ALL_RWY" ++ x) :: xs) =
              p ++ (py!"WS_ALL_RWY" ++ join [32] (x :: xs)) := by
            cases xs <;> simp [join]
          simp only
          rw [e2, e1]
          refine Everywhere.skips ?_ (.hit ⟨32, 32, rfl, by decide, by decide, rfl⟩ h1)
          intro pre suf o post new e hsuf e3 hr
          have e4 : join [32] ((p ++ py!"WS") :: py!"ALL" :: (py!"RWY" ++ t) :: rest) = pre ++ (o ++ post) := by
            rw [e1, ← e3, e]; simp
          obtain ⟨_, _, _, h0⟩ := all_place hw e4 hr
          have h3 := congrArg List.length e
          have h4 : 0 < suf.length := List.length_pos_iff.2 hsuf
          simp at h3
          rcases h0 with ⟨h0, -⟩ | ⟨pre', rfl⟩
          · simp at h0; omega
          · simp at h3; omega
        · intro y hy
          rcases List.mem_cons.1 hy with rfl | hy
          · intro c hc
            simp only [List.mem_append] at hc
            rcases hc with ((hc | hc) | hc) | hc
            · exact hw _ List.mem_cons_self c (by simp only [List.mem_append]; exact .inl hc)
            · exact hw _ List.mem_cons_self c (by simp only [List.mem_append]; exact .inr hc)
            · revert c; decide
            · exact h2 x (by simp) c hc
          · exact h2 y (List.mem_cons_of_mem _ hy)
    · rw [if_neg hp]
      obtain ⟨h1, h2⟩ := ih (rest.length + 2) (by rw [← hn]; simp) hws (by simp)
      refine ⟨?_, ?_⟩
      · rw [join_lift (by simp), join_lift (joinAll_ne (by simp))]
        refine (skip w (a :: v :: rest) hw ?_ _).2 (by simp) h1
        intro w2 w3 ws'' e
        cases e
        simpa using hp
      · intro y hy
        rcases List.mem_cons.1 hy with rfl | hy
        · exact hw y (by simp)
        · exact h2 y hy

/-! ### One runway -/

theorem shearTail_iff {v t : PyStr} : shearTail v = some t ↔
    ∃ wy x y u, (wy = [] ∨ wy = py!"WY") ∧ isDigit x = true ∧ isDigit y = true ∧
      v = py!"R" ++ wy ++ x :: y :: u ∧ t = x :: y :: u := by
  constructor
  · intro h
    unfold shearTail at h
    split at h
    · next x y u =>
      split at h
      · next hd =>
        rw [Bool.and_eq_true] at hd
        cases h
        exact ⟨_, x, y, u, .inr rfl, hd.1, hd.2, rfl, rfl⟩
      · cases h
    · next x y u _ =>
      split at h
      · next hd =>
        rw [Bool.and_eq_true] at hd
        cases h
        exact ⟨_, x, y, u, .inl rfl, hd.1, hd.2, rfl, rfl⟩
      · cases h
    · cases h
  · rintro ⟨wy, x, y, u, hwy, hx, hy, rfl, rfl⟩
    have hW : isDigit 87 = false := by decide +kernel
    rcases hwy with rfl | rfl
    · have hx' : x ≠ 87 := by rintro rfl; rw [hW] at hx; cases hx
      simp only [List.cons_append, List.nil_append, List.append_nil]
      unfold shearTail
      split
      · next e => simp at e; exact absurd e.1 hx'
      · next e =>
        simp at e
        obtain ⟨rfl, rfl, rfl⟩ := e
        simp [hx, hy]
      · next h1 h2 => exact absurd rfl (h2 x y u)
    · simp [shearTail, hx, hy]

/-- Where the rule applies in a text of words. -/
theorem shear_place {w1 : PyStr} {ws : List PyStr} (hw : ∀ w ∈ w1 :: ws, Solid w) {pre o post new : PyStr}
    (e : join [32] (w1 :: ws) = pre ++ (o ++ post)) (hr : wsRule o post new) :
    ∃ w2 ws', ws = w2 :: ws' ∧
      ((py!"WS".isSuffixOf w1 = true ∧ (∃ t, shearTail w2 = some t) ∧ pre.length + 2 = w1.length) ∨
       ∃ pre', pre = w1 ++ 32 :: pre' ∧ join [32] (w2 :: ws') = pre' ++ (o ++ post)) := by
  obtain ⟨a, wy, x, y, side, rfl, ha, hwy, hx, hy, -, rfl⟩ := hr
  have ha' : a = 32 := join_space hw (by rw [e]; simp) ha
  subst ha'
  have e1 : join [32] (w1 :: ws) = pre ++ (py!"WS" ++ 32 :: ((py!"R" ++ wy ++ [x, y]) ++ (side ++ post))) := by
    simpa using e
  obtain ⟨w2, ws', rfl, h0⟩ := blank_place hw (by decide) e1
  refine ⟨w2, ws', rfl, ?_⟩
  rcases h0 with ⟨e2, e3⟩ | ⟨pre', rfl, e3⟩
  · left
    refine ⟨?_, ?_, by rw [← e2]; simp⟩
    · rw [List.isSuffixOf_iff_suffix]; exact ⟨pre, e2⟩
    · have hd : ∀ d, isDigit d = true → 32 ≠ d := by
        rintro d hd rfl
        exact absurd (digit_not_space hd) (by decide)
      obtain ⟨t, ht⟩ := prefix_word (k := py!"R" ++ wy ++ [x, y])
        (by rcases hwy with rfl | rfl <;> simp [hd x hx, hd y hy]) ⟨side ++ post, e3⟩
      exact ⟨x :: y :: t, shearTail_iff.2 ⟨wy, x, y, t, hwy, hx, hy, by rw [← ht]; simp, rfl⟩⟩
  · exact .inr ⟨pre', rfl, by rw [e3]; simp⟩

theorem joinShear_cons {w v : PyStr} {rest : List PyStr} : joinShear (w :: v :: rest) =
    if py!"WS".isSuffixOf w = true ∧ (shearTail v).isSome = true then
      some ((w ++ py!"_R" ++ (shearTail v).getD []) :: rest)
    else (joinShear (v :: rest)).map (w :: ·) := by
  rw [joinShear]
  cases py!"WS".isSuffixOf w <;> cases shearTail v <;> simp

theorem joinShear_absent {ws : List PyStr} (hw : ∀ w ∈ ws, Solid w)
    (h : joinShear ws = none) : Absent wsRule (join [32] ws) := by
  induction ws with
  | nil =>
    rintro pre o post new e ⟨a, d, x, y, s, rfl, -⟩
    simp [join] at e
  | cons w1 ws ih =>
    intro pre o post new e hr
    obtain ⟨w2, ws', rfl, h0⟩ := shear_place hw e hr
    rw [joinShear_cons] at h
    rcases h0 with ⟨hp, ⟨t, ht⟩, -⟩ | ⟨pre', -, e'⟩
    · rw [if_pos ⟨hp, by rw [ht]; rfl⟩] at h; cases h
    · split at h
      · cases h
      · exact ih (fun w h => hw w (List.mem_cons_of_mem _ h)) (by simpa using h) pre' o post new e' hr

theorem shearTail_sub {v t : PyStr} (h : shearTail v = some t) : ∀ c ∈ t, c ∈ v := by
  obtain ⟨wy, x, y, u, -, -, -, rfl, rfl⟩ := shearTail_iff.1 h
  intro c hc
  exact List.mem_append_right _ hc

theorem joinShear_solid {ws ws' : List PyStr} (hw : ∀ w ∈ ws, Solid w) (h : joinShear ws = some ws') :
    (∀ w ∈ ws', Solid w) ∧ ws' ≠ [] := by
  induction ws generalizing ws' with
  | nil => cases h
  | cons w1 ws ih =>
    cases ws with
    | nil => cases h
    | cons w2 ws =>
      rw [joinShear_cons] at h
      split at h
      · next hp =>
        cases h
        obtain ⟨t, ht⟩ := Option.isSome_iff_exists.1 hp.2
        refine ⟨?_, by simp⟩
        intro w hm
        rcases List.mem_cons.1 hm with rfl | hm
        · intro c hc
          rw [ht] at hc
          simp only [List.mem_append] at hc
          rcases hc with (hc | hc) | hc
          · exact hw w1 (by simp) c hc
          · revert c; decide
          · exact hw w2 (by simp) c (shearTail_sub ht c hc)
        · exact hw w (by simp [hm])
      · cases h0 : joinShear (w2 :: ws) with
        | none => rw [h0] at h; cases h
        | some ws2 =>
          rw [h0] at h
          cases h
          refine ⟨?_, by simp⟩
          intro w hm
          rcases List.mem_cons.1 hm with rfl | hm
          · exact hw w (by simp)
          · exact (ih (fun w h => hw w (List.mem_cons_of_mem _ h)) h0).1 w hm

theorem joinShear_first {ws ws' : List PyStr} (hw : ∀ w ∈ ws, Solid w)
    (h : joinShear ws = some ws') : First wsRule (join [32] ws) (join [32] ws') := by
  induction ws generalizing ws' with
  | nil => cases h
  | cons w1 ws ih =>
    cases ws with
    | nil => cases h
    | cons w2 ws =>
      rw [joinShear_cons] at h
      split at h
      · next hp =>
        cases h
        obtain ⟨t, ht⟩ := Option.isSome_iff_exists.1 hp.2
        rw [ht]
        obtain ⟨p, rfl⟩ := List.isSuffixOf_iff_suffix.1 hp.1
        obtain ⟨wy, x, y, u, hwy, hx, hy, rfl, rfl⟩ := shearTail_iff.1 ht
        have hmin : ∀ pre' o' post' new',
            join [32] ((p ++ py!"WS") :: (py!"R" ++ wy ++ x :: y :: u) :: ws) = pre' ++ (o' ++ post') →
            wsRule o' post' new' → p.length ≤ pre'.length := by
          intro pre' o' post' new' e hr
          obtain ⟨_, _, -, h0⟩ := shear_place hw e hr
          rcases h0 with ⟨-, -, h0⟩ | ⟨pre2, rfl, -⟩
          · simp at h0; omega
          · simp
        by_cases hs : ∃ c u', u = c :: u' ∧ c ∈ py!"CLR"
        · obtain ⟨c, u', rfl, hc⟩ := hs
          refine ⟨p, py!"WS" ++ 32 :: py!"R" ++ wy ++ x :: y :: [c],
            if ws = [] then u' else u' ++ 32 :: join [32] ws, py!"WS_R" ++ x :: y :: [c], ?_,
            ⟨32, wy, x, y, [c], rfl, by decide, hwy, hx, hy, .inr ⟨c, hc, rfl⟩, rfl⟩, ?_, hmin⟩
          · cases ws <;> simp [join]
          · cases ws <;> simp [join]
        · refine ⟨p, py!"WS" ++ 32 :: py!"R" ++ wy ++ x :: y :: [],
            if ws = [] then u else u ++ 32 :: join [32] ws, py!"WS_R" ++ x :: y :: [], ?_,
            ⟨32, wy, x, y, [], rfl, by decide, hwy, hx, hy, .inl ⟨rfl, ?_⟩, rfl⟩, ?_, hmin⟩
          · cases ws <;> simp [join]
          · intro c hc hm
            cases u with
            | cons d u =>
              refine hs ⟨d, u, rfl, ?_⟩
              have : d = c := by split at hc <;> simpa using hc
              rwa [this]
            | nil =>
              split at hc
              · cases hc
              · simp at hc; subst hc; revert hm; decide
          · cases ws <;> simp [join]
      · next hp =>
        cases h0 : joinShear (w2 :: ws) with
        | none => rw [h0] at h; cases h
        | some ws2 =>
          rw [h0] at h
          cases h
          have hws : ∀ w ∈ w2 :: ws, Solid w := fun w h => hw w (List.mem_cons_of_mem _ h)
          obtain ⟨pre, o, post, new, e, hr, e', hm⟩ := ih hws h0
          refine ⟨w1 ++ 32 :: pre, o, post, new, ?_, hr, ?_, ?_⟩
          · rw [join_lift (by simp), e]; simp
          · rw [join_lift (joinShear_solid hws h0).2, e']; simp
          · intro pre' o' post' new' e2 hr'
            obtain ⟨_, _, e0, h2⟩ := shear_place hw e2 hr'
            cases e0
            rcases h2 with ⟨hp', ⟨t, ht⟩, -⟩ | ⟨pre2, rfl, e3⟩
            · exact absurd ⟨hp', by rw [ht]; rfl⟩ hp
            · have := hm pre2 o' post' new' e3 hr'
              simp; omega

theorem joinShears_upTo {n : Nat} {ws : List PyStr} (hw : ∀ w ∈ ws, Solid w) :
    UpTo wsRule n (join [32] ws) (join [32] (joinShears n ws)) ∧ ∀ w ∈ joinShears n ws, Solid w := by
  induction n generalizing ws with
  | zero => exact ⟨.stop _, hw⟩
  | succ n ih =>
    unfold joinShears
    cases h : joinShear ws with
    | none => exact ⟨.done (joinShear_absent hw h), hw⟩
    | some ws' =>
      have hs := (joinShear_solid hw h).1
      exact ⟨.step (joinShear_first hw h) (ih hs).1, (ih hs).2⟩

/-- C55. The text of words, after the treatment of the wind shear: every `WS ALL RWY` is joined,
then the first three words WS that are followed by a runway are joined to it; nothing else
changes. -/
theorem C55_windshear_words (ws : List PyStr) (hw : ∀ w ∈ ws, Solid w) :
    sanitizeWindshear (join [32] ws) = join [32] (joinShears 3 (joinAll ws)) := by
  obtain ⟨t, h1, h2⟩ := C55_windshear (join [32] ws)
  obtain ⟨h3, h4⟩ := joinAll_everywhere hw
  have hne : ∀ o post new, wsAllRule o post new → o ≠ [] := by
    rintro o post new ⟨a, b, rfl, -⟩; simp
  cases C55_everywhere_unique exact_wsAllRule hne h1 h3
  exact C55_upTo_unique exact_wsRule h2 (joinShears_upTo h4).1

theorem joinShears_ne {n : Nat} {ws : List PyStr} (h : ws ≠ []) (hw : ∀ w ∈ ws, Solid w) :
    joinShears n ws ≠ [] := by
  induction n generalizing ws with
  | zero => exact h
  | succ n ih =>
    unfold joinShears
    cases h0 : joinShear ws with
    | none => exact h
    | some ws' => exact ih (joinShear_solid hw h0).2 (joinShear_solid hw h0).1

/-- C55. The groups of a METAR body that is a text of words. -/
theorem C55_metar_groups (w0 : PyStr) (ws : List PyStr) (hw : ∀ w ∈ w0 :: ws, Solid w) :
    metarGroups (join [32] (w0 :: ws)) = joinShears 3 (joinAll (w0 :: joinPairs 3 ws)) := by
  obtain ⟨h1, h2⟩ := joinPairs_upTo (n := 3) hw
  have h3 : ∀ w ∈ w0 :: joinPairs 3 ws, Solid w := by
    intro w hm
    rcases List.mem_cons.1 hm with rfl | hm
    · exact hw w (by simp)
    · exact h2 w hm
  obtain ⟨-, h4⟩ := joinAll_everywhere h3
  rw [metarGroups, C55_upTo_unique exact_visRule (C55_visibility _) h1, C55_windshear_words _ h3,
    splitC_join _ (joinShears_ne (joinAll_ne (by simp)) h4)]
  exact fun w hm => ((joinShears_upTo h4).2 w hm).no_blank

/-- Cases: all runways, one runway with and without WY, glued words, a fourth one. -/
example : joinShears 3 (joinAll [py!"A", py!"WS", py!"ALL", py!"RWY", py!"WS", py!"RWY12L", py!"WS", py!"R30"]) =
    [py!"A", py!"WS_ALL_RWY", py!"WS_R12L", py!"WS_R30"] := by decide +kernel
example : metarGroups py!"A 1 1/2SM WS RWY12L WS ALL RWY" =
    [py!"A", py!"1_1/2SM", py!"WS_R12L", py!"WS_ALL_RWY"] := by decide +kernel
example : joinShears 3 [py!"WS", py!"R10", py!"WS", py!"R11", py!"WS", py!"R12", py!"WS", py!"R13"] =
    [py!"WS_R10", py!"WS_R11", py!"WS_R12", py!"WS", py!"R13"] := by decide +kernel

end Verif.Props
