import Verif.Model.Taf
import Verif.Spec.Dict

/-
C39, C40, C41: the bounded lists of groups.
-/

namespace Verif.Props

variable {α : Type}

/-! ### C39: capacity -/

/-- The operations a user can perform on a list of groups. -/
inductive ListOp (α : Type) where
  | add (a : α)
  | next
  | getItem (i : Int)
  | iterate
  | asDict

/-- The list after one operation; an operation that raises leaves the object in the state it had. -/
def ListOp.apply : ListOp α → GroupList α → GroupList α
  | .add a, g => match g.add a with
    | .ok g' => g'
    | .error _ => g
  | .next, g => g.next.2
  | .getItem _, g => g
  | .iterate, g => g.iter.2
  | .asDict, g => g

theorem next_list (g : GroupList α) : g.next.2.list = g.list ∧ g.next.2.max = g.max := by
  unfold GroupList.next; split <;> simp

theorem iterGo_list (f : Nat) (g : GroupList α) :
    (g.iterGo f).2.list = g.list ∧ (g.iterGo f).2.max = g.max := by
  induction f generalizing g with
  | zero => simp [GroupList.iterGo]
  | succ f ih =>
    unfold GroupList.iterGo
    have hn := next_list g
    cases h : g.next with
    | mk o g' =>
      rw [h] at hn
      cases o with
      | none => simpa using hn
      | some a =>
        have := ih g'
        simp only at hn ⊢
        rw [this.1, this.2]; exact hn

/-- C39. However the list of groups is used, starting from an empty list of capacity `k`, it never
holds more than `k` groups, and its capacity stays `k`. -/
theorem C39_capacity (k : Nat) (ops : List (ListOp α)) :
    let g := ops.foldl (fun g op => op.apply g) (GroupList.new k)
    g.list.length ≤ k ∧ g.max = k := by
  suffices h : ∀ g : GroupList α, g.list.length ≤ k ∧ g.max = k →
      (ops.foldl (fun g op => op.apply g) g).list.length ≤ k ∧
        (ops.foldl (fun g op => op.apply g) g).max = k from h _ (by simp [GroupList.new])
  induction ops with
  | nil => intro g h; exact h
  | cons op ops ih =>
    intro g h
    refine ih _ ?_
    cases op with
    | add a =>
      simp only [ListOp.apply, GroupList.add]
      split
      · next g' hg =>
        split at hg
        · simp at hg
        · simp only [Except.ok.injEq] at hg; subst hg; simp; omega
      · exact h
    | next => simp only [ListOp.apply]; rw [(next_list g).1, (next_list g).2]; exact h
    | getItem i => exact h
    | iterate =>
      simp only [ListOp.apply, GroupList.iter]
      rw [(iterGo_list _ g).1, (iterGo_list _ g).2]; exact h
    | asDict => exact h

/-- C39. Adding to a full list raises `RangeError`, and to any other list appends the group. -/
theorem C39_add (g : GroupList α) (a : α) :
    (g.list.length ≥ g.max → g.add a = .error .range) ∧
    (g.list.length < g.max → g.add a = .ok { g with list := g.list ++ [a] }) := by
  unfold GroupList.add
  constructor
  · intro h; rw [if_pos h]
  · intro h; rw [if_neg (by omega)]

/-- A list of capacity 2 that is filled, overfilled and iterated. -/
example : ([ListOp.add 5, .add 6, .add 7, .iterate, .next] : List (ListOp Nat)).foldl
    (fun g op => op.apply g) (GroupList.new 2) = { n := 1, max := 2, list := [5, 6] } := by rfl
example : (GroupList.mk 0 2 [5, 6]).add 7 = .error .range := by rfl
example : (GroupList.mk 0 2 [5]).add 7 = .ok (GroupList.mk 0 2 [5, 7]) := by rfl

/-! ### C40: iteration -/

/-- Calling `next` `k` times: the groups obtained and the state afterwards. -/
def nexts : Nat → GroupList α → List (Option α) × GroupList α
  | 0, g => ([], g)
  | k + 1, g => let (o, g') := g.next; let (os, g'') := nexts k g'; (o :: os, g'')

theorem iterGo_from (f : Nat) (g : GroupList α) (hf : g.list.length - g.n < f) :
    g.iterGo f = (g.list.drop g.n, { g with n := 0 }) := by
  induction f generalizing g with
  | zero => omega
  | succ f ih =>
    unfold GroupList.iterGo GroupList.next
    by_cases h : g.n ≥ g.list.length
    · simp [h, List.drop_of_length_le h]
    · simp only [ge_iff_le, Nat.not_le] at h
      rw [if_neg (by omega)]
      simp only [List.getElem?_eq_getElem h]
      rw [ih { g with n := g.n + 1 } (by simp only; omega)]
      rw [List.drop_eq_getElem_cons h]

/-- C40. A complete iteration from any state of the cursor yields the groups from the cursor on and
leaves the list reset. -/
theorem C40_iteration_from_cursor (g : GroupList α) :
    g.iter = (g.list.drop g.n, { g with n := 0 }) :=
  iterGo_from _ _ (by omega)

/-- C40. From the reset state a complete iteration yields every group once, in order, and leaves
the list as it was: iterations can be repeated any number of times with the same result. -/
theorem C40_iteration (g : GroupList α) (h : g.n = 0) : g.iter = (g.list, g) := by
  rw [C40_iteration_from_cursor, h]
  cases g; simp at h ⊢; exact h.symm

theorem C40_iteration_repeated (g : GroupList α) (h : g.n = 0) (k : Nat) :
    Nat.repeat (fun x => x.iter.2) k g = g := by
  induction k with
  | zero => rfl
  | succ k ih => simp only [Nat.repeat, ih]; rw [C40_iteration g h]

/-- C40. An iteration abandoned after `k` groups is resumed, not restarted, by the next one: that
one yields only the remaining groups. -/
theorem C40_abandoned_iteration (g : GroupList α) (h : g.n = 0) (k : Nat) (hk : k ≤ g.list.length) :
    nexts k g = ((g.list.take k).map some, { g with n := k }) ∧
      (nexts k g).2.iter = (g.list.drop k, g) := by
  have key : ∀ (k : Nat) (g : GroupList α), g.n + k ≤ g.list.length →
      nexts k g = (((g.list.drop g.n).take k).map some, { g with n := g.n + k }) := by
    intro k
    induction k with
    | zero => intro g _; simp [nexts]
    | succ k ih =>
      intro g hg
      have hlt : g.n < g.list.length := by omega
      unfold nexts GroupList.next
      rw [if_neg (by omega)]
      simp only [List.getElem?_eq_getElem hlt]
      rw [ih { g with n := g.n + 1 } (by simp only; omega)]
      rw [List.drop_eq_getElem_cons hlt, List.take_succ_cons, List.map_cons]
      simp only [show g.n + 1 + k = g.n + (k + 1) by omega]
  have e := key k g (by omega)
  rw [h] at e
  simp only [List.drop_zero, Nat.zero_add] at e
  refine ⟨e, ?_⟩
  rw [e, C40_iteration_from_cursor]
  cases g; simp at h ⊢; exact h.symm

example : (GroupList.mk 0 4 [7, 8, 9]).iter = ([7, 8, 9], GroupList.mk 0 4 [7, 8, 9]) := by rfl
example : (nexts 1 (GroupList.mk 0 4 [7, 8, 9])).2.iter = ([8, 9], GroupList.mk 0 4 [7, 8, 9]) := by
  rfl

/-! ### C41: `as_dict` of a list -/

theorem dset_new (d : List (PyStr × PyVal)) (k : PyStr) (v : PyVal) (h : k ∉ d.map Prod.fst) :
    dset d k v = d ++ [(k, v)] := by
  induction d with
  | nil => rfl
  | cons x t ih =>
    obtain ⟨k', v'⟩ := x
    simp only [List.map_cons, List.mem_cons, not_or] at h
    simp [dset, Ne.symm h.1, ih h.2]

theorem asDictGo_ok (f : α → Except Exc PyVal) (vs : α → PyVal) (as : List α)
    (hf : ∀ a ∈ as, f a = .ok (vs a)) (ls : List PyStr) (d : List (PyStr × PyVal))
    (hl : as.length ≤ ls.length) (hn : (d.map Prod.fst ++ ls).Nodup) :
    GroupList.asDictGo f ls as d = .ok (d ++ ls.zip (as.map vs)) := by
  induction as generalizing ls d with
  | nil => simp [GroupList.asDictGo]
  | cons a as ih =>
    cases ls with
    | nil => simp at hl
    | cons l ls =>
      have h1 : l ∉ d.map Prod.fst := by
        intro hm
        rw [List.nodup_append] at hn
        exact hn.2.2 l hm l (by simp) rfl
      have hfa := hf a (by simp)
      unfold GroupList.asDictGo
      rw [hfa]
      simp only [bind, Except.bind]
      rw [ih (fun b hb => hf b (by simp [hb])) ls (dset d l (vs a)) (by simpa using hl)]
      · rw [dset_new _ _ _ h1]; simp
      · rw [dset_new _ _ _ h1]; simpa [List.append_assoc] using hn

/-- C41. For a list of at most ten groups `as_dict` succeeds with exactly one entry per group, in
order, under the labels "first", "second", ..., and the labels are pairwise distinct (so no entry
replaces another). -/
theorem C41_as_dict_labels (g : GroupList α) (dictOf : α → PyVal) (h : g.list.length ≤ 10) :
    g.asDict (fun a => .ok (dictOf a)) =
        .ok (.dict ((Spec.ordinals.take g.list.length).zip (g.list.map dictOf))) ∧
      Spec.ordinals.Nodup ∧ Spec.ordinals.length = 10 := by
  refine ⟨?_, by decide, by decide⟩
  rw [show Spec.ordinals = GroupList.labels from rfl]
  unfold GroupList.asDict
  rw [asDictGo_ok _ dictOf g.list (fun _ _ => rfl) _ [] (by simpa [GroupList.labels] using h) (by decide)]
  simp only [bind, Except.bind, List.nil_append, pure, Except.pure]
  congr 2
  have key : ∀ (ls : List PyStr) (vs : List PyVal), ls.zip vs = (ls.take vs.length).zip vs := by
    intro ls vs
    induction vs generalizing ls with
    | nil => simp
    | cons v vs ih => cases ls <;> simp [← ih]
  rw [key]; simp

/-- C41. Beyond ten groups the labels run out (`IndexError`): the capacity matters. -/
theorem C41_label_limit (g : GroupList α) (dictOf : α → PyVal) (h : 10 < g.list.length) :
    g.asDict (fun a => .ok (dictOf a)) = .error .index := by
  have key : ∀ (ls : List PyStr) (as : List α) (d : List (PyStr × PyVal)), ls.length < as.length →
      GroupList.asDictGo (fun a => .ok (dictOf a)) ls as d = .error .index := by
    intro ls
    induction ls with
    | nil => intro as d h; cases as with
      | nil => simp at h
      | cons a as => rfl
    | cons l ls ih =>
      intro as d h
      cases as with
      | nil => simp at h
      | cons a as =>
        unfold GroupList.asDictGo
        simp only [bind, Except.bind]
        exact ih as _ (by simpa using h)
  unfold GroupList.asDict
  rw [key _ _ _ (by simpa [GroupList.labels] using h)]
  rfl

example : (GroupList.mk 0 4 [true, false]).asDict (fun b => .ok (.bool b)) =
    .ok (.dict [(py!"first", .bool true), (py!"second", .bool false)]) := by rfl

end Verif.Props
