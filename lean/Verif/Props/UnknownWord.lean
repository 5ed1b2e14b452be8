import Verif.Lemmas.Insert
import Verif.Props.Exceptions
import Verif.Props.Parse
import Verif.Props.RoundWords
import Verif.Props.Sections
import Verif.Props.TafSections

/-
C59: a word that matches no handler is only reported, wherever it stands.
-/

namespace Verif.Props
open Spec

theorem _root_.Verif.Spec.Loose.no_miles {w : PyStr} (h : Loose w) : ¬ Miles w := by
  intro hm
  have := h.2 py!"1"
  rw [Bool.eq_false_iff] at this
  exact this (isPair_iff.2 ⟨by simp, by decide, hm⟩)

theorem _root_.Verif.Spec.Unbarred.solid {w : PyStr} (h : Unbarred w) : Solid w := fun c hc => (h.1.2 c hc).1

theorem joinPairs_loose {n : Nat} {ws : List PyStr} (h : ∀ w ∈ ws, ¬ Miles w) : joinPairs n ws = ws := by
  cases n with
  | zero => rfl
  | succ n => rw [joinPairs, joinPair_nil h]

/-- Words that are not joined are the groups. -/
theorem metarGroups_loose {ws : List PyStr} (hne : ws ≠ []) (hs : ∀ w ∈ ws, Solid w)
    (hl : ∀ w ∈ ws, Loose w) : metarGroups (join [32] ws) = ws := by
  cases ws with
  | nil => exact absurd rfl hne
  | cons w ws =>
    rw [C55_metar_groups w ws hs, joinPairs_loose fun v h => (hl v (List.mem_cons_of_mem _ h)).no_miles,
      joinAll_id fun v h => (hl v h).1, joinShears_id fun v h => (hl v h).1]

theorem bodyGroups_loose {ws : List PyStr} (hne : ws ≠ []) (hs : ∀ w ∈ ws, Solid w)
    (hl : ∀ w ∈ ws, ¬ Miles w) : bodyGroups (join [32] ws) = ws := by
  cases ws with
  | nil => exact absurd rfl hne
  | cons w ws =>
    rw [bodyGroups, C55_visibility_words w ws hs, joinPairs_loose fun v h => hl v (by simp [h])]

theorem join_word_ne {w : PyStr} {ws : List PyStr} (h : w ≠ []) : join [32] (w :: ws) ≠ [] := by
  cases ws with
  | nil => exact h
  | cons v vs => simp [join, h]

/-- C59, METAR. If a word that matches no handler is written somewhere among the groups of the body,
then the report is the same but for the texts and the list of unparsed groups, which has the word in
addition; and if the report was refused, it is refused with the same exception. -/
theorem C59_metar_groups (db : Database) (clock : Clock) (a : Args) (w : PyStr) (b b' : List PyStr)
    (trends : List (PyStr × List PyStr)) (remark : Option (PyStr × List PyStr))
    (hne : b ≠ []) (hne' : b' ≠ [])
    (hb : ∀ x ∈ b ++ b', Unbarred x ∧ ¬ Opens metarWords x)
    (ht : ∀ p ∈ trends, Part trendWords metarWords p)
    (hr : ∀ p ∈ remark, Part [py!"RMK"] metarWords p) (ha : a.truncate = false)
    (hw : ∀ h ∈ Metar.handlers db (clock 2) a, h.regexp.match w = none)
    (hi : Inserted w (metarGroups (join [32] b)) (metarGroups (join [32] b'))) :
    (∀ r, Metar.new db clock (join [32] (metarText b trends remark)) a = .ok r →
      ∃ u', Inserted w r.unparsed u' ∧
        Metar.new db clock (join [32] (metarText b' trends remark)) a =
          .ok { r with rawCode := join [32] (metarText b' trends remark),
                       sections := [join [32] b', r.trend, r.remark], unparsed := u' }) ∧
    (∀ e, Metar.new db clock (join [32] (metarText b trends remark)) a = .error e →
      Metar.new db clock (join [32] (metarText b' trends remark)) a = .error e) := by
  have h1 := metarSections_text b trends remark hne (fun x h => hb x (by simp [h])) ht hr
  have h2 := metarSections_text b' trends remark hne' (fun x h => hb x (by simp [h])) ht hr
  have hc : ∀ b, b ≠ [] → (∀ x ∈ b, Unbarred x) → join [32] (metarText b trends remark) ≠ [] := by
    intro b hb hu
    cases b with
    | nil => exact absurd rfl hb
    | cons x b => exact join_word_ne (hu x (by simp)).1.1
  have := Metar.new_insert db clock (join [32] (metarText b trends remark))
    (join [32] (metarText b' trends remark)) w a
    (hc b hne fun x h => (hb x (by simp [h])).1) (hc b' hne' fun x h => (hb x (by simp [h])).1) ha hw
    (by rw [h1.1, h2.1, h1.2.1, h2.2.1]; exact hi)
    (by rw [h1.1, h2.1, h1.2.2.1, h2.2.2.1])
  refine ⟨?_, this.2⟩
  intro r h
  obtain ⟨u', hu, h'⟩ := this.1 r h
  refine ⟨u', hu, ?_⟩
  have e := (Metar.new_sections h).2.2.1
  rw [h1.1, h1.2.2.2] at e
  rw [h2.1, h2.2.1, h2.2.2.2, ← e] at h'
  exact h'

/-- C59, METAR, in words: the word may stand anywhere in a body whose words are not joined with their
neighbours. -/
theorem C59_metar (db : Database) (clock : Clock) (a : Args) (w : PyStr) (pre post : List PyStr)
    (trends : List (PyStr × List PyStr)) (remark : Option (PyStr × List PyStr))
    (hne : pre ++ post ≠ [])
    (hb : ∀ x ∈ w :: (pre ++ post), Unbarred x ∧ ¬ Opens metarWords x ∧ Loose x)
    (ht : ∀ p ∈ trends, Part trendWords metarWords p)
    (hr : ∀ p ∈ remark, Part [py!"RMK"] metarWords p) (ha : a.truncate = false)
    (hw : ∀ h ∈ Metar.handlers db (clock 2) a, h.regexp.match w = none) :
    (∀ r, Metar.new db clock (join [32] (metarText (pre ++ post) trends remark)) a = .ok r →
      ∃ u', Inserted w r.unparsed u' ∧
        Metar.new db clock (join [32] (metarText (pre ++ w :: post) trends remark)) a =
          .ok { r with rawCode := join [32] (metarText (pre ++ w :: post) trends remark),
                       sections := [join [32] (pre ++ w :: post), r.trend, r.remark],
                       unparsed := u' }) ∧
    (∀ e, Metar.new db clock (join [32] (metarText (pre ++ post) trends remark)) a = .error e →
      Metar.new db clock (join [32] (metarText (pre ++ w :: post) trends remark)) a = .error e) := by
  have hb' : ∀ x ∈ pre ++ w :: post, Unbarred x ∧ ¬ Opens metarWords x ∧ Loose x := by
    intro x hx
    apply hb
    simp only [List.mem_append, List.mem_cons] at hx ⊢
    rcases hx with h | h | h <;> simp [h]
  have hb1 : ∀ x ∈ pre ++ post, Unbarred x ∧ ¬ Opens metarWords x ∧ Loose x :=
    fun x hx => hb x (by rw [List.mem_cons]; exact .inr hx)
  refine C59_metar_groups db clock a w (pre ++ post) (pre ++ w :: post) trends remark hne (by simp) ?_
    ht hr ha hw ⟨pre, post, ?_, ?_⟩
  · intro x hx
    rcases List.mem_append.1 hx with hx | hx
    · exact ⟨(hb1 x hx).1, (hb1 x hx).2.1⟩
    · exact ⟨(hb' x hx).1, (hb' x hx).2.1⟩
  · exact metarGroups_loose hne (fun x h => (hb1 x h).1.solid) fun x h => (hb1 x h).2.2
  · exact metarGroups_loose (by simp) (fun x h => (hb' x h).1.solid) fun x h => (hb' x h).2.2

/-! ### TAF -/

theorem joinProbs_calm {n : Nat} {A l : List PyStr} (h : ∀ w ∈ A, ∀ v, isProb w v = false) :
    joinProbs n (A ++ l) = A ++ joinProbs n l := by
  induction A with
  | nil => rfl
  | cons w A ih =>
    rw [List.cons_append, joinProbs_cons (h w (by simp)), ih fun w h' => h w (by simp [h']), List.cons_append]

/-- C59, TAF. The same of the words of the body of a TAF; `rest` are the words of the changes. -/
theorem C59_taf (db : Database) (clock : Clock) (a : Args) (w w0 : PyStr) (pre post rest : List PyStr)
    (changes : List (PyStr × List PyStr))
    (hb : ∀ x ∈ w :: w0 :: (pre ++ post) ++ rest, Unbarred x ∧ 95 ∉ x)
    (hin : ∀ x ∈ w :: (pre ++ post) ++ rest, ¬ py!"TAF" <:+ x)
    (hl : ∀ x ∈ w :: w0 :: (pre ++ post), Loose x ∧ ∀ v, isProb x v = false)
    (h0 : ¬ py!"TAF" <:+ w0 ∧ (∀ x ∈ pre ++ post, ¬ Opens tafWords x) ∨
      w0 = py!"TAF" ∧ pre ++ post ≠ [] ∧ ∀ x ∈ pre.tail ++ post, ¬ Opens tafWords x)
    (hwo : ¬ Opens tafWords w)
    (e : joinProbs 5 rest = changes.flatMap fun p => p.1 :: p.2)
    (hc : ∀ p ∈ changes, Opens tafWords p.1 ∧ ∀ w ∈ p.2, ¬ Opens tafWords w)
    (ha : a.truncate = false)
    (hw : ∀ h ∈ Taf.handlers db (clock 1) a, h.regexp.match w = none) :
    (∀ r, Taf.new db clock (join [32] (w0 :: (pre ++ post) ++ rest)) a = .ok r →
      ∃ u', Inserted w r.unparsed u' ∧
        Taf.new db clock (join [32] (w0 :: (pre ++ w :: post) ++ rest)) a =
          .ok { r with rawCode := join [32] (w0 :: (pre ++ w :: post) ++ rest),
                       body := join [32] (w0 :: (pre ++ w :: post)), unparsed := u' }) ∧
    (∀ e, Taf.new db clock (join [32] (w0 :: (pre ++ post) ++ rest)) a = .error e →
      Taf.new db clock (join [32] (w0 :: (pre ++ w :: post) ++ rest)) a = .error e) := by
  have hsub1 : ∀ x ∈ w0 :: (pre ++ post), x ∈ w :: w0 :: (pre ++ post) := fun x h => by
    rw [List.mem_cons]; exact .inr h
  have hsub2 : ∀ x ∈ w0 :: (pre ++ w :: post), x ∈ w :: w0 :: (pre ++ post) := by
    intro x hx
    simp only [List.mem_append, List.mem_cons] at hx ⊢
    rcases hx with h | h | h | h <;> simp [h]
  have hn : w0 ≠ [] := (hb w0 (by simp)).1.1.1
  have s1 := tafSections_text (ws := w0 :: (pre ++ post) ++ rest) (w0 := w0) (bs := pre ++ post)
    (changes := changes)
    (fun x hx => hb x (by
      rcases List.mem_append.1 hx with h | h
      · exact List.mem_append_left _ (hsub1 x h)
      · exact List.mem_append_right _ h))
    (fun x hx => hin x (by
      simp only [List.cons_append, List.tail_cons, List.mem_append, List.mem_cons] at hx ⊢
      exact .inr hx))
    (by rw [joinProbs_calm fun x h => (hl x (hsub1 x h)).2, e])
    (by
      rcases h0 with ⟨h1, h2⟩ | ⟨h1, h2, h3⟩
      · exact .inl ⟨h1, h2⟩
      · refine .inr ⟨h1, h2, fun x hx => h3 x ?_⟩
        cases pre with
        | nil => exact List.mem_of_mem_tail hx
        | cons y pre => exact hx)
    hc
  have s2 := tafSections_text (ws := w0 :: (pre ++ w :: post) ++ rest) (w0 := w0) (bs := pre ++ w :: post)
    (changes := changes)
    (fun x hx => hb x (by
      rcases List.mem_append.1 hx with h | h
      · exact List.mem_append_left _ (hsub2 x h)
      · exact List.mem_append_right _ h))
    (fun x hx => hin x (by
      simp only [List.cons_append, List.tail_cons, List.mem_append, List.mem_cons] at hx ⊢
      rcases hx with (h | h | h) | h <;> simp [h]))
    (by rw [joinProbs_calm fun x h => (hl x (hsub2 x h)).2, e])
    (by
      rcases h0 with ⟨h1, h2⟩ | ⟨h1, h2, h3⟩
      · refine .inl ⟨h1, fun x hx => ?_⟩
        rcases List.mem_append.1 hx with h | h
        · exact h2 x (List.mem_append_left _ h)
        · rcases List.mem_cons.1 h with rfl | h
          · exact hwo
          · exact h2 x (List.mem_append_right _ h)
      · refine .inr ⟨h1, by simp, fun x hx => ?_⟩
        cases pre with
        | nil => exact h3 x hx
        | cons y pre =>
          rcases List.mem_append.1 hx with h | h
          · exact h3 x (List.mem_append_left _ h)
          · rcases List.mem_cons.1 h with rfl | h
            · exact hwo
            · exact h3 x (List.mem_append_right _ h))
    hc
  have := Taf.new_insert db clock (join [32] (w0 :: (pre ++ post) ++ rest))
    (join [32] (w0 :: (pre ++ w :: post) ++ rest)) w a (join_word_ne hn) (join_word_ne hn) ha hw
    (by
      rw [s1.1, s2.1, s1.2, s2.2]
      refine ⟨w0 :: pre, post, ?_, ?_⟩
      · exact bodyGroups_loose (by simp)
          (fun x h => (hb x (List.mem_append_left _ (hsub1 x h))).1.solid)
          fun x h => (hl x (hsub1 x h)).1.no_miles
      · exact bodyGroups_loose (by simp)
          (fun x h => (hb x (List.mem_append_left _ (hsub2 x h))).1.solid)
          fun x h => (hl x (hsub2 x h)).1.no_miles)
    (by rw [s1.1, s2.1, s1.2, s2.2])
  rw [s2.1, s2.2] at this
  exact this

/-! ### Trends and changes -/

/-- C59, trend. The same of a trend of a METAR. -/
theorem C59_trend (w : PyStr) (pre post : List PyStr) (time : DT) (hne : pre ++ post ≠ [])
    (hb : ∀ x ∈ w :: (pre ++ post), Solid x ∧ 95 ∉ x ∧ Loose x)
    (hw : ∀ h ∈ ChangePeriod.handlers, h.regexp.match w = none) :
    (∀ p, ChangePeriod.new (join [32] (pre ++ post)) time = .ok p → ∃ u', Inserted w p.unparsed u' ∧
      ChangePeriod.new (join [32] (pre ++ w :: post)) time =
        .ok { p with code := some (join [32] (pre ++ w :: post)), unparsed := u' }) ∧
    (∀ e, ChangePeriod.new (join [32] (pre ++ post)) time = .error e →
      ChangePeriod.new (join [32] (pre ++ w :: post)) time = .error e) := by
  have hb' : ∀ x ∈ pre ++ w :: post, Solid x ∧ 95 ∉ x ∧ Loose x := by
    intro x hx
    apply hb
    simp only [List.mem_append, List.mem_cons] at hx ⊢
    rcases hx with h | h | h <;> simp [h]
  have hb1 : ∀ x ∈ pre ++ post, Solid x ∧ 95 ∉ x ∧ Loose x :=
    fun x hx => hb x (by rw [List.mem_cons]; exact .inr hx)
  have hj : ∀ ws : List PyStr, (∀ x ∈ ws, 95 ∉ x) → 95 ∉ join [32] ws := by
    intro ws hws hx
    rcases mem_join hx with h | ⟨x, hx, h⟩
    · simp at h
    · exact hws x hx h
  have := ChangePeriod.new_insert (join [32] (pre ++ post)) (join [32] (pre ++ w :: post)) w time hw
    (by
      rw [replace_absent _ _ _ (hj _ fun x h => (hb1 x h).2.1),
        replace_absent _ _ _ (hj _ fun x h => (hb' x h).2.1)]
      exact ⟨pre, post, bodyGroups_loose hne (fun x h => (hb1 x h).1) fun x h => (hb1 x h).2.2.no_miles,
        bodyGroups_loose (by simp) (fun x h => (hb' x h).1) fun x h => (hb' x h).2.2.no_miles⟩)
  rw [replace_absent _ _ _ (hj _ fun x h => (hb' x h).2.1)] at this
  exact this

theorem joinProb_back {A l : List PyStr} (h : ∀ v ∈ l, ¬ py!"TEMPO" <+: v) :
    joinProb (A ++ l) = (joinProb A).map (· ++ l) := by
  have hno : ∀ w v, v ∈ l → isProb w v = false := by
    intro w v hv
    unfold isProb
    have : py!"TEMPO".isPrefixOf v = false := by
      rw [Bool.eq_false_iff, ne_eq, List.isPrefixOf_iff_prefix]
      exact h v hv
    rw [this, Bool.and_false]
  have hl : ∀ w, joinProb (w :: l) = none := by
    clear h
    induction l with
    | nil => intro w; rfl
    | cons v l ih =>
      intro w
      rw [joinProb, hno w v (by simp), if_neg (by simp), ih fun w v hv => hno w v (by simp [hv])]
      rfl
  induction A with
  | nil =>
    cases l with
    | nil => rfl
    | cons v l =>
      have : ∀ w, joinProb (w :: v :: l) = (joinProb (v :: l)).map (w :: ·) := by
        intro w
        rw [joinProb, hno w v (by simp), if_neg (by simp)]
      have h2 := hl []
      rw [this] at h2
      show joinProb (v :: l) = none
      cases hj : joinProb (v :: l) with
      | none => rfl
      | some x => rw [hj] at h2; cases h2
  | cons w A ih =>
    cases A with
    | nil => exact hl w
    | cons v A =>
      rw [List.cons_append, List.cons_append, joinProb, joinProb]
      split
      · rfl
      · rw [← List.cons_append, ih]
        cases joinProb (v :: A) <;> rfl

theorem joinProbs_back {n : Nat} {A l : List PyStr} (h : ∀ v ∈ l, ¬ py!"TEMPO" <+: v) :
    joinProbs n (A ++ l) = joinProbs n A ++ l := by
  induction n generalizing A with
  | zero => rfl
  | succ n ih =>
    rw [joinProbs, joinProbs, joinProb_back h]
    cases joinProb A with
    | none => rfl
    | some A' => exact ih

theorem joinProbs_ne {n : Nat} {A : List PyStr} (h : A ≠ []) : joinProbs n A ≠ [] := by
  induction n generalizing A with
  | zero => exact h
  | succ n ih =>
    rw [joinProbs]
    cases hj : joinProb A with
    | none => exact h
    | some A' =>
      refine ih ?_
      rintro rfl
      match A with
      | [] => cases hj
      | [_] => cases hj
      | w :: v :: A =>
        rw [joinProb] at hj
        split at hj
        · cases hj
        · cases hx : joinProb (v :: A) <;> rw [hx] at hj <;> cases hj

theorem joinProb_miles {A A' : List PyStr} (h : ∀ w ∈ A, ¬ Miles w) (hj : joinProb A = some A') :
    ∀ w ∈ A', ¬ Miles w := by
  induction A generalizing A' with
  | nil => cases hj
  | cons w A ih =>
    cases A with
    | nil => cases hj
    | cons v A =>
      rw [joinProb] at hj
      split at hj
      · next hp =>
        cases hj
        intro x hx
        rcases List.mem_cons.1 hx with rfl | hx
        · rintro ⟨a, b, t, e, ha, hb⟩
          obtain ⟨p, d, s, rfl, -⟩ := isProb_iff.1 hp
          apply h _ (List.mem_cons_self ..)
          match p with
          | [] => simp at e
          | [_] => simp at e
          | [_, _] => simp at e
          | [_, _, _] => simp at e
          | [_, _, _, _] => simp at e
          | x1 :: x2 :: x3 :: x4 :: x5 :: p =>
            simp only [List.cons_append, List.nil_append, List.cons.injEq] at e
            obtain ⟨rfl, rfl, rfl, rfl, rfl, -⟩ := e
            exact ⟨_, _, _, rfl, ha, hb⟩
        · exact h x (by simp [hx])
      · cases hj' : joinProb (v :: A) with
        | none => rw [hj'] at hj; cases hj
        | some B =>
          rw [hj'] at hj
          cases hj
          intro x hx
          rcases List.mem_cons.1 hx with rfl | hx
          · exact h _ (by simp)
          · exact ih (fun w hw => h w (by simp [hw])) hj' x hx

theorem joinProbs_miles {n : Nat} {A : List PyStr} (h : ∀ w ∈ A, ¬ Miles w) :
    ∀ w ∈ joinProbs n A, ¬ Miles w := by
  induction n generalizing A with
  | zero => exact h
  | succ n ih =>
    rw [joinProbs]
    cases hj : joinProb A with
    | none => exact h
    | some A' => exact ih (joinProb_miles h hj)

/-- C59, change. The same of a change of a TAF; the words `PROB30 TEMPO` may stand before the word. -/
theorem C59_change (w : PyStr) (pre post : List PyStr) (valid : Valid) (hne : pre ++ post ≠ [])
    (hb : ∀ x ∈ w :: (pre ++ post), Solid x ∧ 95 ∉ x ∧ Loose x)
    (hp : ∀ x ∈ w :: post, ¬ py!"TEMPO" <+: x)
    (hw : ∀ h ∈ ChangeForecasted.handlers, h.regexp.match w = none) :
    (∀ p, ChangeForecasted.new (join [32] (pre ++ post)) valid = .ok p → ∃ u', Inserted w p.unparsed u' ∧
      ChangeForecasted.new (join [32] (pre ++ w :: post)) valid =
        .ok { p with code := join [32] (pre ++ w :: post), unparsed := u' }) ∧
    (∀ e, ChangeForecasted.new (join [32] (pre ++ post)) valid = .error e →
      ChangeForecasted.new (join [32] (pre ++ w :: post)) valid = .error e) := by
  have hb' : ∀ x ∈ pre ++ w :: post, Solid x ∧ 95 ∉ x ∧ Loose x := by
    intro x hx
    apply hb
    simp only [List.mem_append, List.mem_cons] at hx ⊢
    rcases hx with h | h | h <;> simp [h]
  have hb1 : ∀ x ∈ pre ++ post, Solid x ∧ 95 ∉ x ∧ Loose x :=
    fun x hx => hb x (by rw [List.mem_cons]; exact .inr hx)
  have hj : ∀ ws : List PyStr, (∀ x ∈ ws, 95 ∉ x) → 95 ∉ join [32] ws := by
    intro ws hws hx
    rcases mem_join hx with h | ⟨x, hx, h⟩
    · simp at h
    · exact hws x hx h
  have hg : ∀ l, (∀ x ∈ pre ++ l, Solid x ∧ 95 ∉ x ∧ Loose x) → pre ++ l ≠ [] →
      (∀ x ∈ l, ¬ py!"TEMPO" <+: x) →
      changeGroups (join [32] (pre ++ l)) = joinProbs 5 pre ++ l := by
    intro l h hn ht
    have hsol := (joinProbs_upTo (n := 5) (ws := pre ++ l) fun x hx => (h x hx).1).2
    have hnm := joinProbs_miles (n := 5) (A := pre ++ l) fun x hx => (h x hx).2.2.no_miles
    have hne' : joinProbs 5 (pre ++ l) ≠ [] := joinProbs_ne hn
    show bodyGroups (sanitizeChangeIndicator _) = _
    rw [C55_change_indicator_words _ fun x hx => (h x hx).1, bodyGroups_loose hne' hsol hnm,
      joinProbs_back ht]
  have := ChangeForecasted.new_insert (join [32] (pre ++ post)) (join [32] (pre ++ w :: post)) w valid hw
    (by
      rw [replace_absent _ _ _ (hj _ fun x h => (hb1 x h).2.1),
        replace_absent _ _ _ (hj _ fun x h => (hb' x h).2.1)]
      exact ⟨joinProbs 5 pre, post, hg post hb1 hne fun x h => hp x (by simp [h]),
        hg (w :: post) hb' (by simp) hp⟩)
  rw [replace_absent _ _ _ (hj _ fun x h => (hb' x h).2.1)] at this
  exact this

/-! ### Concrete cases -/

theorem loose_of {w : PyStr} (h1 : py!"WS".isSuffixOf w = false) (h2 : isPair py!"1" w = false) :
    Loose w := by
  refine ⟨fun h => ?_, fun v => isPair_miles fun hm => ?_⟩
  · rw [List.isSuffixOf_iff_suffix.2 h] at h1; cases h1
  · rw [isPair_iff.2 ⟨by simp, by decide, hm⟩] at h2; cases h2

theorem not_prob_of {w : PyStr} (h : isProb w py!"TEMPO" = false) (v : PyStr) : isProb w v = false := by
  rw [Bool.eq_false_iff]
  intro hp
  obtain ⟨p, d, t, rfl, -, hd⟩ := isProb_iff.1 hp
  have := (isProb_iff (w := p ++ (py!"PROB" ++ d :: py!"0")) (v := py!"TEMPO")).2
    ⟨p, d, [], rfl, rfl, hd⟩
  rw [this] at h
  cases h

/-- A METAR with two trends, a word in the middle of its body: the hypotheses of `C59_metar` hold. -/
example : (∀ x ∈ py!"XYZZY" :: ([py!"METAR", py!"SKBO", py!"151200Z"] ++ [py!"9999", py!"ABC"]),
      Unbarred x ∧ ¬ Opens metarWords x ∧ Loose x) ∧
    (∀ p ∈ [(py!"TEMPO", [py!"2000"]), (py!"BECMG", [py!"NSC"])], Part trendWords metarWords p) ∧
    (∀ h ∈ Metar.handlers sampleDb (sampleClock 2) {}, h.regexp.match py!"XYZZY" = none) ∧
    errOf (Metar.new sampleDb sampleClock py!"METAR SKBO 151200Z 9999 ABC TEMPO 2000 BECMG NSC" {}) = none ∧
    (match Metar.new sampleDb sampleClock py!"METAR SKBO 151200Z XYZZY 9999 ABC TEMPO 2000 BECMG NSC"
        { truncate := false } with
      | .ok r => r.unparsed
      | .error _ => []) = [py!"XYZZY", py!"ABC"] := by
  refine ⟨?_, ?_, ?_, ?_, ?_⟩
  · intro x hx
    refine ⟨?_, ?_, ?_⟩
    · revert x; unfold Unbarred Word; decide +kernel
    · revert x; decide +kernel
    · apply loose_of
      · revert x; decide +kernel
      · revert x; decide +kernel
  · unfold Part Unbarred Word
    decide +kernel
  · decide +kernel
  · decide +kernel
  · decide +kernel

/-- A report that is refused with and without the word. -/
example : errOf (Metar.new sampleDb sampleClock py!"METAR SKBO 321200Z 9999" {}) =
    errOf (Metar.new sampleDb sampleClock py!"METAR XYZZY SKBO 321200Z 9999" {}) := by decide +kernel

/-- A TAF with a change: the hypotheses of `C59_taf` hold. -/
example : (∀ x ∈ py!"XYZZY" :: py!"TAF" :: ([py!"SKBO"] ++ [py!"151200Z", py!"1512/1612"]) ++
        [py!"PROB30", py!"TEMPO", py!"1512/1514", py!"2000"], Unbarred x ∧ 95 ∉ x) ∧
    (∀ x ∈ py!"XYZZY" :: ([py!"SKBO"] ++ [py!"151200Z", py!"1512/1612"]) ++
        [py!"PROB30", py!"TEMPO", py!"1512/1514", py!"2000"], ¬ py!"TAF" <:+ x) ∧
    (∀ x ∈ py!"XYZZY" :: py!"TAF" :: ([py!"SKBO"] ++ [py!"151200Z", py!"1512/1612"]),
      Loose x ∧ ∀ v, isProb x v = false) ∧
    joinProbs 5 [py!"PROB30", py!"TEMPO", py!"1512/1514", py!"2000"] =
      [(py!"PROB30_TEMPO", [py!"1512/1514", py!"2000"])].flatMap (fun p => p.1 :: p.2) ∧
    (∀ h ∈ Taf.handlers sampleDb (sampleClock 1) {}, h.regexp.match py!"XYZZY" = none) ∧
    (match Taf.new sampleDb sampleClock
          py!"TAF SKBO XYZZY 151200Z 1512/1612 PROB30 TEMPO 1512/1514 2000" { truncate := false } with
      | .ok r => r.unparsed
      | .error _ => []) = [py!"XYZZY"] := by
  refine ⟨?_, ?_, ?_, ?_, ?_, ?_⟩
  · unfold Unbarred Word; decide +kernel
  · decide +kernel
  · intro x hx
    refine ⟨loose_of ?_ ?_, not_prob_of ?_⟩ <;> revert x <;> decide +kernel
  · decide +kernel
  · decide +kernel
  · decide +kernel

/-- A trend and a change. -/
example : (∀ h ∈ ChangePeriod.handlers, h.regexp.match py!"XYZZY" = none) ∧
    (∀ h ∈ ChangeForecasted.handlers, h.regexp.match py!"XYZZY" = none) ∧
    (match ChangePeriod.new py!"TEMPO XYZZY 2000" ⟨2024, 6, 15, 12, 0⟩ with
      | .ok p => p.unparsed
      | .error _ => []) = [py!"XYZZY"] := by decide +kernel

end Verif.Props
