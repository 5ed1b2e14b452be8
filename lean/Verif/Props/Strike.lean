import Verif.Lemmas.Strike
import Verif.Props.UnknownWord

/-
C96: the unparsed groups can be struck out of a text.
-/

namespace Verif.Props
open Spec

variable {σ : Type}

/-- C96, section. The decoded groups alone are decoded in the same way, and none is left unparsed. -/
theorem C96_section (hs : List (Handler σ)) (t t' : PyStr) (s : σ) (c : List (PyStr × Nat))
    (hc : Decodes hs (splitC 32 t) c) (ht : splitC 32 t' = c.map (·.1)) :
    parseSection hs t' s = (parseSection hs t s).map (fun x => (x.1, [])) ∧
      Decodes hs (splitC 32 t') c ∧ (c.map (·.1)).Sublist (splitC 32 t) := by
  refine ⟨parseSection_kept hc ht (f := id) (fun h _ m s => ?_) s, ?_, ?_⟩
  · simp only [id]
    cases h.run m s <;> rfl
  · rw [ht]; exact (decodes_kept hc).1
  · exact kept_sublist hc

/-- C96, METAR. A text whose body has just the decoded groups of another, and the same trends, gives
the same report but for the texts and the unparsed groups, of which only those of the trends are left;
or the same exception. -/
theorem C96_metar_groups (db : Database) (clock : Clock) (code code' : PyStr) (a : Args)
    (hc : code ≠ []) (hc' : code' ≠ []) (ha : a.truncate = false) {c : List (PyStr × Nat)}
    (hd : Decodes (Metar.handlers db (clock 2) a) (metarGroups (metarSections (normalizeCode code)).1) c)
    (hb : metarGroups (metarSections (normalizeCode code')).1 = c.map (·.1))
    (ht : (metarSections (normalizeCode code')).2.1 = (metarSections (normalizeCode code)).2.1) :
    (∀ r, Metar.new db clock code a = .ok r → ∃ un u', Leaves (Metar.handlers db (clock 2) a)
        (metarGroups (metarSections (normalizeCode code)).1) un ∧ r.unparsed = un ++ u' ∧
      Metar.new db clock code' a = .ok { r with
        rawCode := normalizeCode code'
        sections := [(metarSections (normalizeCode code')).1, r.trend,
          (metarSections (normalizeCode code')).2.2]
        unparsed := u' }) ∧
    (∀ e, Metar.new db clock code a = .error e → Metar.new db clock code' a = .error e) :=
  Metar.new_kept db clock code code' a hc hc' ha hd hb ht

/-- C96, METAR, in words. Of a body whose words are not joined with their neighbours the words that are
not decoded can be struck out. -/
theorem C96_metar (db : Database) (clock : Clock) (a : Args) (b : List PyStr)
    (trends : List (PyStr × List PyStr)) (remark : Option (PyStr × List PyStr))
    (hb : ∀ x ∈ b, Unbarred x ∧ ¬ Opens metarWords x ∧ Loose x)
    (ht : ∀ p ∈ trends, Part trendWords metarWords p)
    (hr : ∀ p ∈ remark, Part [py!"RMK"] metarWords p) (ha : a.truncate = false)
    {c : List (PyStr × Nat)} (hd : Decodes (Metar.handlers db (clock 2) a) b c) (hc : c ≠ []) :
    (∀ r, Metar.new db clock (join [32] (metarText b trends remark)) a = .ok r →
      ∃ un u', Leaves (Metar.handlers db (clock 2) a) b un ∧ r.unparsed = un ++ u' ∧
        Metar.new db clock (join [32] (metarText (c.map (·.1)) trends remark)) a =
          .ok { r with rawCode := join [32] (metarText (c.map (·.1)) trends remark),
                       sections := [join [32] (c.map (·.1)), r.trend, r.remark],
                       unparsed := u' }) ∧
    (∀ e, Metar.new db clock (join [32] (metarText b trends remark)) a = .error e →
      Metar.new db clock (join [32] (metarText (c.map (·.1)) trends remark)) a = .error e) := by
  have hsub := kept_sublist hd
  have hk : c.map (·.1) ≠ [] := by simpa using hc
  have hne : b ≠ [] := by
    rintro rfl
    exact hk (List.sublist_nil.1 hsub)
  have hb' : ∀ x ∈ c.map (·.1), Unbarred x ∧ ¬ Opens metarWords x ∧ Loose x :=
    fun x h => hb x (hsub.subset h)
  have h1 := metarSections_text b trends remark hne (fun x h => ⟨(hb x h).1, (hb x h).2.1⟩) ht hr
  have h2 := metarSections_text (c.map (·.1)) trends remark hk
    (fun x h => ⟨(hb' x h).1, (hb' x h).2.1⟩) ht hr
  have hcd : ∀ b, b ≠ [] → (∀ x ∈ b, Unbarred x) → join [32] (metarText b trends remark) ≠ [] := by
    intro b hb hu
    cases b with
    | nil => exact absurd rfl hb
    | cons x b => exact join_word_ne (hu x (by simp)).1.1
  have g1 := metarGroups_loose hne (fun x h => (hb x h).1.solid) fun x h => (hb x h).2.2
  have g2 := metarGroups_loose hk (fun x h => (hb' x h).1.solid) fun x h => (hb' x h).2.2
  have := Metar.new_kept db clock (join [32] (metarText b trends remark))
    (join [32] (metarText (c.map (·.1)) trends remark)) a
    (hcd b hne fun x h => (hb x h).1) (hcd _ hk fun x h => (hb' x h).1) ha (c := c)
    (by rw [h1.1, h1.2.1, g1]; exact hd)
    (by rw [h2.1, h2.2.1, g2])
    (by rw [h1.1, h2.1, h1.2.2.1, h2.2.2.1])
  refine ⟨?_, this.2⟩
  intro r h
  obtain ⟨un, u', hl, hu, h'⟩ := this.1 r h
  rw [h1.1, h1.2.1, g1] at hl
  refine ⟨un, u', hl, hu, ?_⟩
  have e := (Metar.new_sections h).2.2.1
  rw [h1.1, h1.2.2.2] at e
  rw [h2.1, h2.2.1, h2.2.2.2, ← e] at h'
  exact h'

/-- C96, TAF. -/
theorem C96_taf_groups (db : Database) (clock : Clock) (code code' : PyStr) (a : Args)
    (hc : code ≠ []) (hc' : code' ≠ []) (ha : a.truncate = false) {c : List (PyStr × Nat)}
    (hd : Decodes (Taf.handlers db (clock 1) a) (bodyGroups (tafSections (normalizeCode code)).1) c)
    (hb : bodyGroups (tafSections (normalizeCode code')).1 = c.map (·.1))
    (ht : (tafSections (normalizeCode code')).2 = (tafSections (normalizeCode code)).2) :
    (∀ r, Taf.new db clock code a = .ok r → ∃ un u', Leaves (Taf.handlers db (clock 1) a)
        (bodyGroups (tafSections (normalizeCode code)).1) un ∧ r.unparsed = un ++ u' ∧
      Taf.new db clock code' a = .ok { r with
        rawCode := normalizeCode code', body := (tafSections (normalizeCode code')).1
        unparsed := u' }) ∧
    (∀ e, Taf.new db clock code a = .error e → Taf.new db clock code' a = .error e) :=
  Taf.new_kept db clock code code' a hc hc' ha hd hb ht

/-- C96, TAF, in words. The first word is decoded (it is the type or the station); `rest` are the words
of the changes. -/
theorem C96_taf (db : Database) (clock : Clock) (a : Args) (w0 : PyStr) (bs rest : List PyStr)
    (changes : List (PyStr × List PyStr))
    (hb : ∀ x ∈ w0 :: bs ++ rest, Unbarred x ∧ 95 ∉ x)
    (hin : ∀ x ∈ bs ++ rest, ¬ py!"TAF" <:+ x)
    (hl : ∀ x ∈ w0 :: bs, Loose x ∧ ∀ v, isProb x v = false)
    (h0 : ¬ py!"TAF" <:+ w0 ∧ (∀ x ∈ bs, ¬ Opens tafWords x) ∨
      w0 = py!"TAF" ∧ ∀ x ∈ bs.tail, ¬ Opens tafWords x)
    (e : joinProbs 5 rest = changes.flatMap fun p => p.1 :: p.2)
    (hc : ∀ p ∈ changes, Opens tafWords p.1 ∧ ∀ w ∈ p.2, ¬ Opens tafWords w)
    (ha : a.truncate = false) {i : Nat} {c : List (PyStr × Nat)} (hk : c ≠ [])
    (hd : Decodes (Taf.handlers db (clock 1) a) (w0 :: bs) ((w0, i) :: c)) :
    (∀ r, Taf.new db clock (join [32] (w0 :: bs ++ rest)) a = .ok r →
      ∃ un u', Leaves (Taf.handlers db (clock 1) a) (w0 :: bs) un ∧ r.unparsed = un ++ u' ∧
        Taf.new db clock (join [32] (w0 :: c.map (·.1) ++ rest)) a =
          .ok { r with rawCode := join [32] (w0 :: c.map (·.1) ++ rest),
                       body := join [32] (w0 :: c.map (·.1)), unparsed := u' }) ∧
    (∀ e, Taf.new db clock (join [32] (w0 :: bs ++ rest)) a = .error e →
      Taf.new db clock (join [32] (w0 :: c.map (·.1) ++ rest)) a = .error e) := by
  have hsub : (c.map (·.1)).Sublist bs := by
    have := kept_sublist hd
    rw [List.map_cons] at this
    exact List.cons_sublist_cons.1 this
  have hsubc : ∀ x ∈ w0 :: c.map (·.1), x ∈ w0 :: bs := by
    intro x hx
    rcases List.mem_cons.1 hx with h | h
    · rw [h]; exact List.mem_cons_self
    · exact List.mem_cons_of_mem _ (hsub.subset h)
  have htail : ∀ x ∈ (c.map (·.1)).tail, x ∈ bs.tail := by
    intro x hx
    generalize c.map (·.1) = k at hsub hx
    cases hsub with
    | slnil => simp at hx
    | cons y h => exact h.subset (List.mem_of_mem_tail hx)
    | cons_cons y h => exact h.subset hx
  have hn : w0 ≠ [] := (hb w0 (by simp)).1.1.1
  have hk' : c.map (·.1) ≠ [] := by simpa using hk
  have hne : bs ≠ [] := by
    rintro rfl
    exact hk' (List.sublist_nil.1 hsub)
  have s1 := tafSections_text (ws := w0 :: bs ++ rest) (w0 := w0) (bs := bs) (changes := changes)
    hb (fun x hx => hin x (by simpa using hx))
    (by rw [joinProbs_calm fun x h => (hl x h).2, e])
    (by
      rcases h0 with ⟨h1, h2⟩ | ⟨h1, h3⟩
      · exact .inl ⟨h1, h2⟩
      · exact .inr ⟨h1, hne, h3⟩) hc
  have s2 := tafSections_text (ws := w0 :: c.map (·.1) ++ rest) (w0 := w0) (bs := c.map (·.1))
    (changes := changes)
    (fun x hx => hb x (by
      rcases List.mem_append.1 hx with h | h
      · exact List.mem_append_left _ (hsubc x h)
      · exact List.mem_append_right _ h))
    (fun x hx => hin x (by
      simp only [List.cons_append, List.tail_cons, List.mem_append] at hx ⊢
      rcases hx with h | h
      · exact .inl (hsub.subset h)
      · exact .inr h))
    (by rw [joinProbs_calm fun x h => (hl x (hsubc x h)).2, e])
    (by
      rcases h0 with ⟨h1, h2⟩ | ⟨h1, h3⟩
      · exact .inl ⟨h1, fun x hx => h2 x (hsub.subset hx)⟩
      · exact .inr ⟨h1, hk', fun x hx => h3 x (htail x hx)⟩)
    hc
  have g1 : bodyGroups (join [32] (w0 :: bs)) = w0 :: bs := bodyGroups_loose (by simp)
    (fun x h => (hb x (List.mem_append_left _ h)).1.solid) fun x h => (hl x h).1.no_miles
  have g2 : bodyGroups (join [32] (w0 :: c.map (·.1))) = w0 :: c.map (·.1) :=
    bodyGroups_loose (by simp) (fun x h => (hb x (List.mem_append_left _ (hsubc x h))).1.solid)
      fun x h => (hl x (hsubc x h)).1.no_miles
  have := Taf.new_kept db clock (join [32] (w0 :: bs ++ rest)) (join [32] (w0 :: c.map (·.1) ++ rest)) a
    (join_word_ne hn) (join_word_ne hn) ha (c := (w0, i) :: c)
    (by rw [s1.1, s1.2]; simp only; rw [g1]; exact hd)
    (by rw [s2.1, s2.2]; simp only; rw [g2]; rfl)
    (by rw [s1.1, s2.1, s1.2, s2.2])
  rw [s2.1, s2.2, s1.1, s1.2] at this
  simp only at this
  rw [g1] at this
  exact this

/-- C96, trend. -/
theorem C96_trend (ws : List PyStr) (time : DT) (hb : ∀ x ∈ ws, Solid x ∧ 95 ∉ x ∧ Loose x)
    {c : List (PyStr × Nat)} (hd : Decodes ChangePeriod.handlers ws c) (hc : c ≠ []) :
    (∀ p, ChangePeriod.new (join [32] ws) time = .ok p → Leaves ChangePeriod.handlers ws p.unparsed ∧
      ChangePeriod.new (join [32] (c.map (·.1))) time =
        .ok { p with code := some (join [32] (c.map (·.1))), unparsed := [] }) ∧
    (∀ e, ChangePeriod.new (join [32] ws) time = .error e →
      ChangePeriod.new (join [32] (c.map (·.1))) time = .error e) := by
  have hsub := kept_sublist hd
  have hk : c.map (·.1) ≠ [] := by simpa using hc
  have hne : ws ≠ [] := by
    rintro rfl
    exact hk (List.sublist_nil.1 hsub)
  have hb' : ∀ x ∈ c.map (·.1), Solid x ∧ 95 ∉ x ∧ Loose x := fun x h => hb x (hsub.subset h)
  have hj : ∀ ws : List PyStr, (∀ x ∈ ws, Solid x ∧ 95 ∉ x ∧ Loose x) →
      replace (join [32] ws) py!"_" py!" " = join [32] ws := by
    intro ws hws
    refine replace_absent _ _ _ fun hx => ?_
    rcases mem_join hx with h | ⟨x, hx, h⟩
    · simp at h
    · exact (hws x hx).2.1 h
  have g1 := bodyGroups_loose hne (fun x h => (hb x h).1) fun x h => (hb x h).2.2.no_miles
  have g2 := bodyGroups_loose hk (fun x h => (hb' x h).1) fun x h => (hb' x h).2.2.no_miles
  have := ChangePeriod.new_kept (join [32] ws) (join [32] (c.map (·.1))) time (c := c)
    (by rw [hj ws hb, g1]; exact hd) (by rw [hj _ hb', g2])
  rw [hj ws hb, hj _ hb', g1] at this
  exact this

/-- C96, change of a TAF. -/
theorem C96_change (ws : List PyStr) (valid : Valid)
    (hb : ∀ x ∈ ws, Solid x ∧ 95 ∉ x ∧ Loose x ∧ ∀ v, isProb x v = false)
    {c : List (PyStr × Nat)} (hd : Decodes ChangeForecasted.handlers ws c) (hc : c ≠ []) :
    (∀ p, ChangeForecasted.new (join [32] ws) valid = .ok p →
      Leaves ChangeForecasted.handlers ws p.unparsed ∧
      ChangeForecasted.new (join [32] (c.map (·.1))) valid =
        .ok { p with code := join [32] (c.map (·.1)), unparsed := [] }) ∧
    (∀ e, ChangeForecasted.new (join [32] ws) valid = .error e →
      ChangeForecasted.new (join [32] (c.map (·.1))) valid = .error e) := by
  have hsub := kept_sublist hd
  have hk : c.map (·.1) ≠ [] := by simpa using hc
  have hne : ws ≠ [] := by
    rintro rfl
    exact hk (List.sublist_nil.1 hsub)
  have hb' : ∀ x ∈ c.map (·.1), Solid x ∧ 95 ∉ x ∧ Loose x ∧ ∀ v, isProb x v = false :=
    fun x h => hb x (hsub.subset h)
  have hj : ∀ ws : List PyStr, (∀ x ∈ ws, Solid x ∧ 95 ∉ x ∧ Loose x ∧ ∀ v, isProb x v = false) →
      replace (join [32] ws) py!"_" py!" " = join [32] ws := by
    intro ws hws
    refine replace_absent _ _ _ fun hx => ?_
    rcases mem_join hx with h | ⟨x, hx, h⟩
    · simp at h
    · exact (hws x hx).2.1 h
  have hg : ∀ ws : List PyStr, ws ≠ [] →
      (∀ x ∈ ws, Solid x ∧ 95 ∉ x ∧ Loose x ∧ ∀ v, isProb x v = false) →
      changeGroups (join [32] ws) = ws := by
    intro ws hn h
    have hp : joinProbs 5 ws = ws := by
      have := joinProbs_calm (n := 5) (A := ws) (l := []) fun x hx => (h x hx).2.2.2
      simp only [List.append_nil] at this
      rw [this]
      show ws ++ [] = ws
      simp
    show bodyGroups (sanitizeChangeIndicator _) = _
    rw [C55_change_indicator_words _ fun x hx => (h x hx).1, hp,
      bodyGroups_loose hn (fun x hx => (h x hx).1) fun x hx => (h x hx).2.2.1.no_miles]
  have := ChangeForecasted.new_kept (join [32] ws) (join [32] (c.map (·.1))) valid (c := c)
    (by rw [hj ws hb, hg ws hne hb]; exact hd) (by rw [hj _ hb', hg _ hk hb'])
  rw [hj ws hb, hj _ hb', hg ws hne hb] at this
  exact this

/-! ### Concrete cases -/

/-- A METAR with two unparsed words in its body, one of which is a group that came too late, and one in a
trend: the decoded groups, and the hypotheses of `C96_metar`. -/
example : (∀ x ∈ [py!"METAR", py!"SKBO", py!"XYZZY", py!"151200Z", py!"9999", py!"10005KT"],
      Unbarred x ∧ ¬ Opens metarWords x ∧ Loose x) ∧
    (∀ p ∈ [(py!"TEMPO", [py!"2000", py!"ABC"])], Part trendWords metarWords p) ∧
    Decodes (Metar.handlers sampleDb (sampleClock 2) { truncate := false })
      [py!"METAR", py!"SKBO", py!"XYZZY", py!"151200Z", py!"9999", py!"10005KT"]
      [(py!"METAR", 0), (py!"SKBO", 1), (py!"151200Z", 2), (py!"9999", 6)] ∧
    (match Metar.new sampleDb sampleClock py!"METAR SKBO XYZZY 151200Z 9999 10005KT TEMPO 2000 ABC"
        { truncate := false },
      Metar.new sampleDb sampleClock py!"METAR SKBO 151200Z 9999 TEMPO 2000 ABC"
        { truncate := false } with
      | .ok r, .ok r' => decide (r.unparsed = [py!"XYZZY", py!"10005KT", py!"ABC"] ∧
          r'.unparsed = [py!"ABC"] ∧ r'.time.time = r.time.time ∧
          r'.core.prevailing.code = some py!"9999")
      | _, _ => false) = true := by
  refine ⟨?_, ?_, ?_, ?_⟩
  · intro x hx
    refine ⟨?_, ?_, ?_⟩
    · revert x; unfold Unbarred Word; decide +kernel
    · revert x; decide +kernel
    · apply loose_of
      · revert x; decide +kernel
      · revert x; decide +kernel
  · unfold Part Unbarred Word
    decide +kernel
  · rw [decodes_iff]; decide +kernel
  · decide +kernel

/-- The same of a TAF with a change, and of a change. -/
example : (∀ x ∈ py!"TAF" :: [py!"SKBO", py!"XYZZY", py!"151200Z", py!"1512/1612", py!"9999"] ++
        [py!"TEMPO", py!"1512/1514", py!"2000"], Unbarred x ∧ 95 ∉ x) ∧
    (∀ x ∈ py!"TAF" :: [py!"SKBO", py!"XYZZY", py!"151200Z", py!"1512/1612", py!"9999"],
      Loose x ∧ ∀ v, isProb x v = false) ∧
    Decodes (Taf.handlers sampleDb (sampleClock 1) { truncate := false })
      (py!"TAF" :: [py!"SKBO", py!"XYZZY", py!"151200Z", py!"1512/1612", py!"9999"])
      ((py!"TAF", 0) :: [(py!"SKBO", 2), (py!"151200Z", 3), (py!"1512/1612", 5), (py!"9999", 8)]) ∧
    Decodes ChangeForecasted.handlers [py!"TEMPO", py!"1512/1514", py!"ABC", py!"2000"]
      [(py!"TEMPO", 0), (py!"1512/1514", 1), (py!"2000", 3)] ∧
    (∀ x ∈ [py!"TEMPO", py!"1512/1514", py!"ABC", py!"2000"],
      Solid x ∧ 95 ∉ x ∧ Loose x ∧ ∀ v, isProb x v = false) := by
  refine ⟨?_, ?_, ?_, ?_, ?_⟩
  · unfold Unbarred Word; decide +kernel
  · intro x hx
    refine ⟨?_, ?_⟩
    · apply loose_of
      · revert x; decide +kernel
      · revert x; decide +kernel
    · apply not_prob_of
      revert x; decide +kernel
  · rw [decodes_iff]; decide +kernel
  · rw [decodes_iff]; decide +kernel
  · intro x hx
    refine ⟨?_, ?_, ?_, ?_⟩
    · revert x; unfold Solid; decide +kernel
    · revert x; decide +kernel
    · apply loose_of
      · revert x; decide +kernel
      · revert x; decide +kernel
    · apply not_prob_of
      revert x; decide +kernel

/-- The hypotheses of `C96_trend`. -/
example : Decodes ChangePeriod.handlers [py!"TEMPO", py!"ABC", py!"FM1230", py!"2000"]
      [(py!"TEMPO", 0), (py!"FM1230", 1), (py!"2000", 4)] ∧
    (∀ x ∈ [py!"TEMPO", py!"ABC", py!"FM1230", py!"2000"], Solid x ∧ 95 ∉ x ∧ Loose x) := by
  refine ⟨?_, ?_⟩
  · rw [decodes_iff]; decide +kernel
  · intro x hx
    refine ⟨?_, ?_, ?_⟩
    · revert x; unfold Solid; decide +kernel
    · revert x; decide +kernel
    · apply loose_of
      · revert x; decide +kernel
      · revert x; decide +kernel

end Verif.Props
