import Verif.Lemmas.Split

/-
C85: `split_sentence` for any text without a bar, any keywords of capital letters and digits, any
limit and any of the four ways to look for a keyword.
-/

namespace Verif.Props
open Verif Verif.Spec

theorem splitSentence_marked (s : PyStr) (kws : List PyStr) (count : Nat) (sp : Space) :
    splitSentence s kws count sp = splitC 124 (marked sp.add count kws s) := rfl

/-! ### Nothing is lost -/

/-- C85: when the blank before a keyword is looked for, the parts joined by blanks are the text. -/
theorem C85_left_spells (s : PyStr) (kws : List PyStr) (count : Nat) (sp : Space)
    (hsp : sp = .left ∨ sp = .both) (hk : ∀ kw ∈ kws, Keyword kw) (hs : 124 ∉ s) :
    join [32] (splitSentence s kws count sp) = s := by
  rw [splitSentence_marked, join_splitC_bar, marked_image, flatMap_unbarred _ hs]
  · intro c hc; simp [barBlank, hc]
  · rcases hsp with rfl | rfl <;> simp [Space.add]
  · intro kw hkw
    have hp := (hk kw hkw).plain
    obtain ⟨c, t, rfl⟩ := List.exists_cons_of_ne_nil hp.1
    have hc := (hp.2 c (by simp)).1
    have h32 : isSpace 32 = true := by decide
    rcases hsp with rfl | rfl <;>
      simp only [Space.add, lstrip, List.cons_append, List.dropWhile_cons, h32, hc, if_true, Bool.false_eq_true, if_false] <;>
      simp [barBlank]

/-- C85: otherwise the parts put one after the other are the text. -/
theorem C85_right_spells (s : PyStr) (kws : List PyStr) (count : Nat) (sp : Space)
    (hsp : sp = .right ∨ sp = .none) (hk : ∀ kw ∈ kws, Keyword kw) (hs : 124 ∉ s) :
    (splitSentence s kws count sp).flatten = s := by
  rw [splitSentence_marked, flatten_splitC_bar, marked_image, flatMap_unbarred _ hs]
  · intro c hc; simp [barNone, hc]
  · intro kw hkw
    rcases hsp with rfl | rfl
    · simp [Space.add]
    · exact (hk kw hkw).1
  · intro kw hkw
    have hp := (hk kw hkw).plain
    obtain ⟨c, t, rfl⟩ := List.exists_cons_of_ne_nil hp.1
    have hc := (hp.2 c (by simp)).1
    rcases hsp with rfl | rfl <;>
      simp only [Space.add, lstrip, List.cons_append, List.dropWhile_cons, hc, Bool.false_eq_true, if_false] <;>
      simp [barNone]

/-! ### Where it is cut -/

/-- C85: when the blank before a keyword is looked for, every part but the first begins with a
keyword. -/
theorem C85_opens (s : PyStr) (kws : List PyStr) (count : Nat) (sp : Space)
    (hsp : sp = .left ∨ sp = .both) (hk : ∀ kw ∈ kws, Keyword kw) (hs : 124 ∉ s) :
    ∀ p ∈ (splitSentence s kws count sp).tail, Opens kws p := by
  rw [splitSentence_marked]
  refine splitC_opens (fun kw h => (hk kw h).plain.no_bar) ?_
  have h0 : BarsOpen kws s := fun a b e => absurd (by rw [e]; simp) hs
  have hp : ∀ kw ∈ kws, Plain kw := fun kw h => (hk kw h).plain
  rcases hsp with rfl | rfl
  · exact marked_open (tail := []) (by simp [Space.add]) (by simp) hp hp (fun _ h => h) h0
  · exact marked_open (tail := [32]) (by simp [Space.add]) (by decide) hp hp (fun _ h => h) h0

/-- C85: with the blank on the left and no limit the parts are the only ones that spell the text,
begin with keywords and cannot be cut further. -/
theorem C85_left_exact (s : PyStr) (kws ps : List PyStr) (hk : ∀ kw ∈ kws, Keyword kw) (hs : 124 ∉ s) :
    splitSentence s kws 0 .left = ps ↔ Pieces kws s ps := by
  have hp : ∀ kw ∈ kws, Plain kw := fun kw h => (hk kw h).plain
  rw [splitSentence_left hp]
  exact ⟨fun h => h ▸ pieces_cut hp s hs, fun h => pieces_unique hp hs h⟩

/-- C85: a limit bounds the number of parts. -/
theorem C85_limit (s : PyStr) (kws : List PyStr) (count : Nat) (sp : Space)
    (hk : ∀ kw ∈ kws, Keyword kw) (hs : 124 ∉ s) (hc : count ≠ 0) :
    (splitSentence s kws count sp).length ≤ count * kws.length + 1 := by
  rw [splitSentence_marked, length_splitC_bar]
  have := marked_bars (add := sp.add) (count := count) (kws := kws) ?_ ?_ hc s
  · rw [List.count_eq_zero_of_not_mem hs] at this
    omega
  · intro kw hkw
    have := (hk kw hkw).1
    cases sp <;> simp [Space.add, this]
  · intro kw hkw
    have := (hk kw hkw).plain.no_bar
    cases sp <;> simp [Space.add, this]

/-! ### What does not hold -/

/-- With blanks on both sides a keyword that follows another one directly is overlooked, although
there is no limit; cut anywhere, a part need not begin with a keyword. -/
theorem C85_counterexample :
    splitSentence py!"A TEMPO TEMPO B" [py!"TEMPO"] 0 .both = [py!"A", py!"TEMPO TEMPO B"] ∧
    splitSentence py!"PROBTEMPO X" [py!"PROBTEMPO", py!"TEMPO"] 0 .none = [[], py!"PROB", py!"TEMPO X"] := by
  decide +kernel

/-! ### Samples -/

example : Keyword py!"TEMPO" ∧ Keyword py!"FM" ∧ 124 ∉ py!"A FM1200 B TEMPO C FM1300 D" := by decide

example : splitSentence py!"A FM1200 B TEMPO C FM1300 D" [py!"FM", py!"TEMPO"] 0 .left =
    [py!"A", py!"FM1200 B", py!"TEMPO C", py!"FM1300 D"] := by decide +kernel

example : splitSentence py!"A FM1200 B TEMPO C FM1300 D" [py!"FM", py!"TEMPO"] 1 .left =
    [py!"A", py!"FM1200 B", py!"TEMPO C FM1300 D"] := by decide +kernel

example : splitSentence py!"A FM1200 B TEMPO C FM1300 D" [py!"FM", py!"TEMPO"] 0 .both =
    [py!"A FM1200 B", py!"TEMPO C FM1300 D"] := by decide +kernel

example : splitSentence py!"A FM1200 B TEMPO C FM1300 D" [py!"FM", py!"TEMPO"] 0 .right =
    [py!"A FM1200 B ", py!"TEMPO C FM1300 D"] := by decide +kernel

example : splitSentence py!"A FM1200 B TEMPO C FM1300 D" [py!"FM", py!"TEMPO"] 0 .none =
    [py!"A ", py!"FM1200 B ", py!"TEMPO C ", py!"FM1300 D"] := by decide +kernel

end Verif.Props
