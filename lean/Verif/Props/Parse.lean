import Verif.Lemmas.Parse
import Verif.Model.Regexps

/-
C05, C06, C59: what `parse_section` does with the groups of a section, for any handler table.
-/

namespace Verif.Props

variable {σ : Type}

/-- C05. Every blank-separated group of the section is either consumed by exactly one handler (the
assignment gives one position or none per group) or left over; the returned list is exactly the
groups left over, in order and with multiplicities, and the result is that of running the methods
of the consumed groups in order (an exception of one of them being the outcome). -/
theorem C05_group_conservation (hs : List (Handler σ)) (text : PyStr) (s : σ) :
    ∃ (asg : List (Option Nat)) (out : Except Exc σ),
      asg.length = (splitC 32 text).length ∧
      Spec.Runs hs (Spec.consumed (splitC 32 text) asg) s out ∧
      (parseSection hs text s = out.map fun s' => (s', Spec.leftover (splitC 32 text) asg)) ∧
      Spec.FirstApplicable hs (splitC 32 text) asg := by
  obtain ⟨out, h1, h2⟩ := @parseSection_eq σ hs text s
  refine ⟨_, out, assign_length hs 0 _, h1, h2, ?_⟩
  intro k g o hg ho
  have := assign_first k g o hg ho
  simpa only [boundFrom_zero] using this

theorem leftover_length {gs : List PyStr} {asg : List (Option Nat)} (h : asg.length = gs.length) :
    (Spec.used asg).length + (Spec.leftover gs asg).length = gs.length := by
  induction gs generalizing asg with
  | nil => cases asg <;> simp_all [Spec.used, Spec.leftover]
  | cons g gs ih =>
    cases asg with
    | nil => simp at h
    | cons o asg =>
      have := ih (asg := asg) (by simpa using h)
      cases o <;> simp [Spec.used, Spec.leftover] at this ⊢ <;> omega

theorem leftover_sublist {gs : List PyStr} {asg : List (Option Nat)} (h : asg.length = gs.length) :
    (Spec.leftover gs asg).Sublist gs := by
  induction gs generalizing asg with
  | nil => simp [Spec.leftover]
  | cons g gs ih =>
    cases asg with
    | nil => simp at h
    | cons o asg =>
      have := ih (asg := asg) (by simpa using h)
      cases o <;> simp_all [Spec.leftover]

/-- C05, counting form: the number of groups equals the number of consumed ones plus the number of
unparsed ones. -/
theorem C05_count (hs : List (Handler σ)) (text : PyStr) (s s' : σ) (un : List PyStr)
    (h : parseSection hs text s = .ok (s', un)) :
    ∃ asg : List (Option Nat), Spec.FirstApplicable hs (splitC 32 text) asg ∧
      un = Spec.leftover (splitC 32 text) asg ∧
      (Spec.used asg).length + un.length = (splitC 32 text).length ∧ un.Sublist (splitC 32 text) := by
  obtain ⟨asg, out, h1, _, h3, h4⟩ := C05_group_conservation hs text s
  rw [h3] at h
  cases out with
  | error e => simp [Except.map] at h
  | ok s1 =>
    simp only [Except.map, Except.ok.injEq, Prod.mk.injEq] at h
    exact ⟨asg, h4, h.2.symm, h.2 ▸ leftover_length h1, h.2 ▸ leftover_sublist h1⟩

/-- C06. The handlers fire in strictly increasing table order (so none fires twice), all of them
being handlers of the table, and each group goes to the first applicable one. -/
theorem C06_handler_order (hs : List (Handler σ)) (text : PyStr) (s s' : σ) (un : List PyStr)
    (h : parseSection hs text s = .ok (s', un)) :
    ∃ asg : List (Option Nat), asg.length = (splitC 32 text).length ∧
      Spec.FirstApplicable hs (splitC 32 text) asg ∧
      (Spec.used asg).Pairwise (· < ·) ∧ (∀ i ∈ Spec.used asg, i < hs.length) ∧
      Spec.Runs hs (Spec.consumed (splitC 32 text) asg) s (.ok s') := by
  obtain ⟨out, h1, h2⟩ := @parseSection_eq σ hs text s
  rw [h2] at h
  cases out with
  | error e => simp [Except.map] at h
  | ok s1 =>
    simp only [Except.map, Except.ok.injEq, Prod.mk.injEq] at h
    rw [← h.1]
    refine ⟨_, assign_length hs 0 _, ?_, assign_used.2, fun i hi => (assign_used.1 i hi).2, h1⟩
    intro k g o hg ho
    have := assign_first k g o hg ho
    simpa only [boundFrom_zero] using this

/-- C06, uniqueness: the rule "first applicable handler not below those already used" determines
the assignment completely. -/
theorem C06_deterministic (hs : List (Handler σ)) (gs : List PyStr) (a b : List (Option Nat))
    (ha : a.length = gs.length) (hb : b.length = gs.length)
    (h1 : Spec.FirstApplicable hs gs a) (h2 : Spec.FirstApplicable hs gs b) : a = b :=
  firstApplicable_unique hs gs a b ha hb h1 h2

theorem splitC_ne_nil (sep : Nat) (s : PyStr) : splitC sep s ≠ [] := by
  induction s with
  | nil => simp [splitC]
  | cons c t ih =>
    unfold splitC
    split
    · simp
    · split <;> simp

theorem splitC_snoc (sep : Nat) (s w : PyStr) (hw : sep ∉ w) :
    splitC sep (s ++ sep :: w) = splitC sep s ++ [w] := by
  have hw' : splitC sep w = [w] := by
    induction w with
    | nil => rfl
    | cons c t ih =>
      simp only [List.mem_cons, not_or] at hw
      unfold splitC
      rw [if_neg (fun h => hw.1 h.symm), ih hw.2]
  induction s with
  | nil => simp [splitC, hw']
  | cons c t ih =>
    simp only [List.cons_append]
    unfold splitC
    rw [ih]
    split
    · rfl
    · cases h : splitC sep t with
      | nil => exact absurd h (splitC_ne_nil sep t)
      | cons w' ws => rfl

theorem parseGo_snoc (hs : List (Handler σ)) (w : PyStr)
    (hw : ∀ h ∈ hs, h.regexp.match w = none) (gs : List PyStr) (index : Nat) (un : List PyStr)
    (s : σ) :
    parseGo hs (gs ++ [w]) index un s =
      (parseGo hs gs index un s).map fun x => (x.1, x.2 ++ [w]) := by
  have hd : ∀ i, tryHandlers (hs.drop i) w 0 = none := fun i =>
    tryHandlers_none.2 fun h hh => hw h (List.mem_of_mem_drop hh)
  induction gs generalizing index un s with
  | nil => simp [parseGo, hd, Except.map]
  | cons g gs ih =>
    simp only [List.cons_append]
    unfold parseGo
    cases tryHandlers (hs.drop index) g 0 with
    | none => exact ih _ _ _
    | some x =>
      obtain ⟨n, m, h⟩ := x
      cases hr : h.run m s with
      | error e => simp [hr, Except.map]
      | ok s1 => simp only [hr]; exact ih _ _ _

/-- C59. Appending to a section a word that matches no handler leaves the decoded data as they are
and appends the word to the unparsed groups; a raised exception stays the same. -/
theorem C59_unknown_trailing_word (hs : List (Handler σ)) (text w : PyStr) (s : σ)
    (hblank : 32 ∉ w) (hw : ∀ h ∈ hs, h.regexp.match w = none) :
    parseSection hs (text ++ 32 :: w) s =
      (parseSection hs text s).map fun x => (x.1, x.2 ++ [w]) := by
  unfold parseSection
  rw [splitC_snoc 32 text w hblank]
  exact parseGo_snoc hs w hw _ _ _ _

/-! ### Concrete cases -/

/-- A small table: cloud, cloud, temperatures; the state records what was consumed. -/
def sampleTable : List (Handler (List PyStr)) :=
  [⟨MetarRegExp.CLOUD, fun m s => .ok (s ++ [m.string])⟩,
   ⟨MetarRegExp.CLOUD, fun m s => .ok (s ++ [m.string])⟩,
   ⟨MetarRegExp.TEMPERATURES, fun m s => .ok (s ++ [m.string])⟩]

/-- Repeated groups, a group too many and a group out of order: hypotheses of `C05_count` and
`C06_handler_order` hold with consumed and unparsed groups. -/
example : parseSection sampleTable py!"XYZ FEW010 FEW010 FEW010 10/05 SCT020 XYZ" [] =
    .ok ([py!"FEW010", py!"FEW010", py!"10/05"], [py!"XYZ", py!"FEW010", py!"SCT020", py!"XYZ"]) := by
  rfl

/-- The assignment of that case. -/
example : assign sampleTable 0 (splitC 32 py!"XYZ FEW010 FEW010 FEW010 10/05 SCT020 XYZ") =
    [none, some 0, some 1, none, some 2, none, none] := by rfl

/-- A word for `C59_unknown_trailing_word`. -/
example : 32 ∉ py!"XYZ" ∧ ∀ h ∈ sampleTable, h.regexp.match py!"XYZ" = none := by
  decide

end Verif.Props
