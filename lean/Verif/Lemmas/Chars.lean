import Verif.Lemmas.Blanks
import Verif.Lemmas.Construct
import Verif.Lemmas.Paths

/-
Which characters can occur in the texts cut out of a report: a character that does not occur in the
report (nor among the few the library inserts) occurs in none of its groups.
-/

namespace Verif

theorem not_mem_subGo {r : RE} {repl : PyStr} {x : Nat} (hr : x ∉ repl) (s : PyStr) :
    ∀ (n : Option Nat) (k : Nat), x ∉ s → x ∉ r.subGo repl n k s := by
  induction s with
  | nil => intro n k _; rw [RE.subGo_nil]; simp
  | cons c t ih =>
    intro n k h
    simp only [List.mem_cons, not_or] at h
    cases k with
    | succ k =>
      rw [RE.subGo]
      exact ih n k h.2
    | zero =>
      by_cases h0 : n = some 0
      · subst h0
        rw [RE.subGo_zero]
        simp [h]
      · rw [RE.subGo]
        · split
          · split
            · simp only [List.mem_cons, not_or]
              exact ⟨h.1, ih _ _ h.2⟩
            · simp only [List.mem_append, not_or]
              exact ⟨hr, ih _ _ h.2⟩
          · simp only [List.mem_cons, not_or]
            exact ⟨h.1, ih _ _ h.2⟩
        · simpa using h0

theorem not_mem_sub {r : RE} {repl s : PyStr} {x count : Nat} (hs : x ∉ s) (hr : x ∉ repl) :
    x ∉ r.sub repl s count := not_mem_subGo hr s _ _ hs

theorem not_mem_splitC {sep x : Nat} {s : PyStr} (h : x ∉ s) : ∀ w ∈ splitC sep s, x ∉ w := by
  induction s with
  | nil => intro w hw; simp [splitC] at hw; simp [hw]
  | cons c t ih =>
    simp only [List.mem_cons, not_or] at h
    intro w hw
    unfold splitC at hw
    split at hw
    · rcases List.mem_cons.1 hw with rfl | hw
      · simp
      · exact ih h.2 w hw
    · split at hw
      · simp only [List.mem_singleton] at hw
        simp [hw, h.1]
      · next w' ws heq =>
        rw [heq] at ih
        rcases List.mem_cons.1 hw with rfl | hw
        · simp only [List.mem_cons, not_or]
          exact ⟨h.1, ih h.2 w' (by simp)⟩
        · exact ih h.2 w (by simp [hw])

/-- The separator does not occur in the parts. -/
theorem sep_not_mem_splitC {sep : Nat} (s : PyStr) : ∀ w ∈ splitC sep s, sep ∉ w := by
  induction s with
  | nil => intro w hw; simp [splitC] at hw; simp [hw]
  | cons c t ih =>
    intro w hw
    unfold splitC at hw
    split at hw
    · rcases List.mem_cons.1 hw with rfl | hw
      · simp
      · exact ih w hw
    · next hne =>
      split at hw
      · simp only [List.mem_singleton] at hw
        simp [hw, Ne.symm hne]
      · next w' ws heq =>
        rw [heq] at ih
        rcases List.mem_cons.1 hw with rfl | hw
        · simp only [List.mem_cons, not_or]
          exact ⟨Ne.symm hne, ih w' (by simp)⟩
        · exact ih w (by simp [hw])

theorem not_mem_replaceGo {old new : PyStr} {x : Nat} (hn : x ∉ new) (s : PyStr) :
    ∀ k, x ∉ s → x ∉ replaceGo old new k s := by
  induction s with
  | nil => intro k _; simp [replaceGo]
  | cons c t ih =>
    intro k h
    simp only [List.mem_cons, not_or] at h
    cases k with
    | succ k => rw [replaceGo]; exact ih k h.2
    | zero =>
      rw [replaceGo]
      split
      · simp only [List.mem_append, not_or]; exact ⟨hn, ih _ h.2⟩
      · simp only [List.mem_cons, not_or]; exact ⟨h.1, ih _ h.2⟩

theorem not_mem_replace {s old new : PyStr} {x : Nat} (ho : old ≠ []) (hs : x ∉ s) (hn : x ∉ new) :
    x ∉ replace s old new := by
  unfold replace
  rw [if_neg ho]
  exact not_mem_replaceGo hn s 0 hs

theorem not_mem_group {m : Match} {n : Cap} {x : Nat} (h : x ∉ m.string) :
    x ∉ (m.group n).getD [] := by
  unfold Match.group
  cases m.caps.lookup n with
  | none => simp
  | some ab =>
    intro hx
    exact h (List.mem_of_mem_drop (List.mem_of_mem_take hx))

theorem not_mem_search {r : RE} {s : PyStr} {m : Match} {x : Nat} (h : r.search s = some m)
    (hx : x ∉ s) : x ∉ m.string := by
  induction s with
  | nil =>
    rw [RE.search] at h
    rw [RE.match_string h]; exact hx
  | cons c t ih =>
    rw [RE.search] at h
    split at h
    · next hm =>
      cases h
      rw [RE.match_string hm]; exact hx
    · simp only [List.mem_cons, not_or] at hx
      exact ih h hx.2

theorem not_mem_loopUpTo {step : PyStr → Option PyStr} {x : Nat}
    (hs : ∀ s s', step s = some s' → x ∉ s → x ∉ s') (n : Nat) (s : PyStr) (h : x ∉ s) :
    x ∉ loopUpTo step n s := by
  induction n generalizing s with
  | zero => exact h
  | succ n ih =>
    rw [loopUpTo]
    split
    · exact h
    · next s' he => exact ih s' (hs s s' he h)

theorem not_mem_sanitizeVisibility {x : Nat} (h32 : x ≠ 32) (h95 : x ≠ 95) {s : PyStr} (h : x ∉ s) :
    x ∉ sanitizeVisibility s := by
  refine not_mem_loopUpTo ?_ 3 s h
  intro s s' he hx
  unfold sanVisStep at he
  split at he
  · cases he
  · next m hm =>
    cases he
    have hg := fun n => not_mem_group (n := n) (not_mem_search hm hx)
    apply not_mem_sub hx
    simp [h32, h95, hg]

theorem not_mem_sanitizeWindshear {x : Nat} (hx : x ∉ py!"WS_ALL_RWY") {s : PyStr} (h : x ∉ s) :
    x ∉ sanitizeWindshear s := by
  refine not_mem_loopUpTo ?_ 3 _ (not_mem_sub h hx)
  intro s s' he hs
  unfold sanWsStep at he
  split at he
  · cases he
  · next m hm =>
    cases he
    have hg := fun n => not_mem_group (n := n) (not_mem_search hm hs)
    apply not_mem_sub hs
    simp at hx
    simp [hx, hg]

theorem not_mem_sanitizeChangeIndicator {x : Nat} (hx : x ∉ py!"PROB_TEMPO") {s : PyStr}
    (h : x ∉ s) : x ∉ sanitizeChangeIndicator s := by
  refine not_mem_loopUpTo ?_ 5 s h
  intro s s' he hs
  unfold sanProbStep at he
  split at he
  · cases he
  · next m hm =>
    cases he
    have hg := fun n => not_mem_group (n := n) (not_mem_search hm hs)
    apply not_mem_sub hs
    simp at hx
    simp [hx, hg]

theorem not_mem_splitSentence {x : Nat} {s : PyStr} {kws : List PyStr} {count : Nat} {sp : Space}
    (hs : x ∉ s) (h124 : x ≠ 124) (hk : ∀ kw ∈ kws, x ∉ lstrip (sp.add kw)) :
    ∀ w ∈ splitSentence s kws count sp, x ∉ w := by
  unfold splitSentence
  apply not_mem_splitC
  induction kws generalizing s with
  | nil => exact hs
  | cons kw kws ih =>
    simp only [List.foldl_cons]
    refine ih (not_mem_sub hs ?_) fun k hk' => hk k (by simp [hk'])
    simp only [List.mem_cons, not_or]
    exact ⟨h124, hk kw (by simp)⟩

theorem not_mem_metarSectionsGo {x : Nat} (h32 : x ≠ 32) (l : List PyStr) (hl : ∀ w ∈ l, x ∉ w) :
    ∀ b t r, x ∉ b → x ∉ t → x ∉ r → x ∉ (metarSectionsGo l b t r).1 ∧
      x ∉ (metarSectionsGo l b t r).2.1 ∧ x ∉ (metarSectionsGo l b t r).2.2 := by
  induction l with
  | nil => intro b t r hb ht hr; exact ⟨hb, ht, hr⟩
  | cons w ws ih =>
    intro b t r hb ht hr
    have hw := hl w (by simp)
    have ih := ih fun v hv => hl v (by simp [hv])
    rw [metarSectionsGo]
    split
    · exact ih _ _ _ hb (by simp [ht, hw, h32]) hr
    · split
      · exact ih _ _ _ hb ht hw
      · exact ih _ _ _ hw ht hr

/-- The sections of a METAR hold no newline. -/
theorem metarSections_no_newline {raw : PyStr} (h : 10 ∉ raw) :
    10 ∉ (metarSections raw).1 ∧ 10 ∉ (metarSections raw).2.1 := by
  have hs : ∀ w ∈ splitSentence raw [py!"NOSIG", py!"TEMPO", py!"BECMG", py!"RMK"] 0 .left, 10 ∉ w :=
    not_mem_splitSentence h (by decide) (by decide +kernel)
  have := not_mem_metarSectionsGo (x := 10) (by decide) _ hs [] [] [] (by simp) (by simp) (by simp)
  unfold metarSections
  exact ⟨this.1, fun hx => this.2.1 (strip_mem hx)⟩

theorem Metar.bodyText_no_newline {raw : PyStr} (h : 10 ∉ raw) : 10 ∉ Metar.bodyText raw :=
  not_mem_sanitizeWindshear (by decide)
    (not_mem_sanitizeVisibility (by decide) (by decide) (metarSections_no_newline h).1)

theorem Metar.trendParts_no_newline {raw : PyStr} (h : 10 ∉ raw) :
    ∀ w ∈ Metar.trendParts raw, 10 ∉ w :=
  not_mem_splitSentence (metarSections_no_newline h).2 (by decide) (by decide +kernel)

theorem tafSections_no_newline {raw : PyStr} (h : 10 ∉ raw) :
    10 ∉ (tafSections raw).1 ∧ ∀ w ∈ (tafSections raw).2, 10 ∉ w := by
  have h1 : 10 ∉ sanitizeChangeIndicator raw := not_mem_sanitizeChangeIndicator (by decide) h
  have h2 : 10 ∉ (if startsWith (sanitizeChangeIndicator raw) py!"TAF" then
      replace (sanitizeChangeIndicator raw) py!"TAF " py!"TAF_" else sanitizeChangeIndicator raw) := by
    split
    · exact not_mem_replace (by decide) h1 (by decide)
    · exact h1
  have hs := not_mem_splitSentence (kws := [py!"FM", py!"TEMPO", py!"BECMG", py!"PROB"])
    (count := 0) (sp := .left) h2 (by decide) (by decide +kernel)
  unfold tafSections
  simp only
  generalize splitSentence _ [py!"FM", py!"TEMPO", py!"BECMG", py!"PROB"] 0 .left = l at hs ⊢
  cases l with
  | nil => simp
  | cons b cs =>
    exact ⟨not_mem_replace (old := py!"TAF_") (new := py!"TAF ") (by decide) (hs b (by simp)) (by decide), fun w hw => hs w (by simp [hw])⟩

theorem Taf.bodyText_no_newline {raw : PyStr} (h : 10 ∉ raw) : 10 ∉ Taf.bodyText raw :=
  not_mem_sanitizeVisibility (by decide) (by decide) (tafSections_no_newline h).1

end Verif
