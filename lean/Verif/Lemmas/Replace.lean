import Verif.Lemmas.Own
import Verif.Lemmas.Ambiguity
import Verif.Lemmas.Engine
import Verif.Spec.Replace

/-
Helper lemmas for C109.
-/

namespace Verif
open Spec

variable {σ : Type}

theorem firstAt_alike {hs : List (Handler σ)} {w w' : PyStr} (h : ∀ i, Accepts hs i w ↔ Accepts hs i w')
    {b : Nat} {o : Option Nat} (hf : FirstAt hs b w o) : FirstAt hs b w' o := by
  cases o with
  | none => exact fun j hj ha => hf j hj ((h j).2 ha)
  | some i => exact ⟨hf.1, (h i).1 hf.2.1, fun j h1 h2 ha => hf.2.2 j h1 h2 ((h j).2 ha)⟩

/-- The same places are assigned after the replacement. -/
theorem firstApplicable_replace {hs : List (Handler σ)} {w w' : PyStr}
    (h : ∀ i, Accepts hs i w ↔ Accepts hs i w') {pre post : List PyStr} {asg : List (Option Nat)}
    (hf : FirstApplicable hs (pre ++ w :: post) asg) : FirstApplicable hs (pre ++ w' :: post) asg := by
  intro k g o hg ho
  rcases Nat.lt_trichotomy k pre.length with hk | rfl | hk
  · rw [List.getElem?_append_left hk] at hg
    exact hf k g o (by rw [List.getElem?_append_left hk, hg]) ho
  · rw [List.getElem?_append_right (Nat.le_refl _), Nat.sub_self, List.getElem?_cons_zero,
      Option.some.injEq] at hg
    subst hg
    exact firstAt_alike h (hf _ w o (by simp) ho)
  · rw [List.getElem?_append_right (Nat.le_of_lt hk)] at hg
    obtain ⟨n, hn⟩ : ∃ n, k - pre.length = n + 1 := ⟨k - pre.length - 1, by omega⟩
    rw [hn, List.getElem?_cons_succ] at hg
    exact hf k g o (by rw [List.getElem?_append_right (Nat.le_of_lt hk), hn, List.getElem?_cons_succ, hg]) ho

/-- What is decoded and what is left before and after the replacement. -/
theorem decodes_replace {hs : List (Handler σ)} {w w' : PyStr}
    (h : ∀ i, Accepts hs i w ↔ Accepts hs i w') {pre post : List PyStr} {c c' : List (PyStr × Nat)}
    {un un' : List PyStr} (hc : Decodes hs (pre ++ w :: post) c) (hc' : Decodes hs (pre ++ w' :: post) c')
    (hu : Leaves hs (pre ++ w :: post) un) (hu' : Leaves hs (pre ++ w' :: post) un') :
    (∃ p i q, c = p ++ (w, i) :: q ∧ c' = p ++ (w', i) :: q ∧ un = un') ∨
    (c = c' ∧ ∃ p q, un = p ++ w :: q ∧ un' = p ++ w' :: q) := by
  obtain ⟨asg, hl, hf, rfl⟩ := hc
  obtain ⟨asg', hl', hf', rfl⟩ := hc'
  obtain ⟨b, hb, hfb, rfl⟩ := hu
  obtain ⟨b', hb', hfb', rfl⟩ := hu'
  obtain rfl := firstApplicable_unique hs _ _ _ hb hl hfb hf
  obtain rfl := firstApplicable_unique hs _ _ _ hb' hl' hfb' hf'
  have hlen : (pre ++ w' :: post).length = (pre ++ w :: post).length := by simp
  obtain rfl := firstApplicable_unique hs _ _ _ hl' (hl.trans hlen.symm) hf' (firstApplicable_replace h hf)
  have hlt : pre.length < b'.length := by rw [hl]; simp
  obtain ⟨a1, o, a2, rfl, h1⟩ : ∃ a1 o a2, b' = a1 ++ o :: a2 ∧ a1.length = pre.length :=
    ⟨b'.take pre.length, b'[pre.length], b'.drop (pre.length + 1),
      by rw [List.getElem_cons_drop, List.take_append_drop], by rw [List.length_take]; omega⟩
  rw [consumed_append h1, consumed_append h1, leftover_append h1, leftover_append h1]
  cases o with
  | some i =>
    exact .inl ⟨consumed pre a1, i, consumed post a2, rfl, rfl, rfl⟩
  | none =>
    exact .inr ⟨rfl, leftover pre a1, leftover post a2, rfl, rfl⟩

theorem accepts_alike {κ : Type} {hs : List (Handler σ)} {ks : List κ} {p : κ → RE}
    (e : hs.map Handler.regexp = ks.map p) {w w' : PyStr} (h : Alike (ks.map p) w w') (i : Nat) :
    Accepts hs i w ↔ Accepts hs i w' := by
  have key : ∀ {f : Handler σ}, hs[i]? = some f → (Admits f.regexp w ↔ Admits f.regexp w') := by
    intro f hf
    apply h
    rw [← e]
    exact List.mem_map.2 ⟨f, List.mem_of_getElem? hf, rfl⟩
  constructor
  · rintro ⟨f, hf, hm⟩
    exact ⟨f, hf, Option.isSome_iff_exists.2 ((key hf).1 (Option.isSome_iff_exists.1 hm))⟩
  · rintro ⟨f, hf, hm⟩
    exact ⟨f, hf, Option.isSome_iff_exists.2 ((key hf).2 (Option.isSome_iff_exists.1 hm))⟩

theorem taken_replace {p q : List (PyStr × Nat)} {w w' : PyStr} {i lo hi : Nat} :
    (¬ (lo ≤ i ∧ i ≤ hi) → SameAt (p ++ (w, i) :: q) (p ++ (w', i) :: q) lo hi) ∧
    (lo ≤ i → i ≤ hi → taken (p ++ (w, i) :: q) lo hi = taken p lo hi ++ w :: taken q lo hi) := by
  unfold SameAt taken
  refine ⟨fun h => ?_, fun h1 h2 => ?_⟩
  · simp [h]
  · simp [h1, h2]

theorem each_append {α β : Type} {R : α → β → Prop} {l l2 : List α} {xs : List β} (h : Each R (l ++ l2) xs) :
    ∃ a b, xs = a ++ b ∧ Each R l a ∧ Each R l2 b := by
  induction l generalizing xs with
  | nil => exact ⟨[], xs, rfl, .nil, h⟩
  | cons y l ih =>
    cases h with
    | cons h1 h2 =>
      obtain ⟨a, b, rfl, e1, e2⟩ := ih h2
      exact ⟨_ :: a, b, rfl, .cons h1 e1, e2⟩

/-- A list attribute whose groups contain the replaced one. -/
theorem FromGroups.oneOff {α : Type} {p q : List (PyStr × Nat)} {w w' : PyStr} {i lo hi : Nat} {re : RE}
    {f : Match → Except Exc α} {x x' : List α} (h : FromGroups (p ++ (w, i) :: q) lo hi re f x)
    (h' : FromGroups (p ++ (w', i) :: q) lo hi re f x') (h1 : lo ≤ i) (h2 : i ≤ hi) : OneOff x x' := by
  unfold FromGroups at h h'
  rw [(taken_replace (w' := w)).2 h1 h2] at h
  rw [(taken_replace (w' := w)).2 h1 h2] at h'
  obtain ⟨a, b, rfl, e1, e2⟩ := each_append h
  obtain ⟨a', b', rfl, e1', e2'⟩ := each_append h'
  obtain rfl := each_same e1 e1'
  cases e2 with
  | cons _ e2 => cases e2' with
    | cons _ e2' =>
      obtain rfl := each_same e2 e2'
      exact ⟨_, _, _, _, rfl, rfl⟩

/-! ### Words of a TAF that begin with four digits -/

/-- Only digits are members. -/
def digitCC (k : CC) : Bool :=
  k.ranges.all fun r => CC.digit.ranges.any fun q => decide (q.1 ≤ r.1) && decide (r.2 ≤ q.2)

theorem digitCC_mem {k : CC} {c : Nat} (h : digitCC k = true) (hm : k.mem c = true) : CC.digit.mem c = true := by
  unfold CC.mem inRanges at hm ⊢
  obtain ⟨r, hr, h1⟩ := List.any_eq_true.1 hm
  obtain ⟨q, hq, h2⟩ := List.any_eq_true.1 (List.all_eq_true.1 h r hr)
  refine List.any_eq_true.2 ⟨q, hq, ?_⟩
  simp only [Bool.and_eq_true, decide_eq_true_eq, Nat.ble_eq] at h1 h2 ⊢
  omega

theorem four_digits_visibility {a b c d : Nat} {rest : PyStr}
    (h : ∀ x ∈ [a, b, c, d], CC.digit.mem x = true) :
    Admits TafRegExp.VISIBILITY (a :: b :: c :: d :: rest) := by
  cases hm : TafRegExp.VISIBILITY.match (a :: b :: c :: d :: rest) with
  | some m => exact ⟨m, hm⟩
  | none =>
    exfalso
    apply match_none_iff.1 hm
    unfold TafRegExp.VISIBILITY
    exact .left (.seq .bos (.seq (.grp (.rep (k := 4) (by decide) (by simp) (by
      intro i hi
      match i with
      | 0 => exact ⟨a, rfl, h a (by simp)⟩
      | 1 => exact ⟨b, rfl, h b (by simp)⟩
      | 2 => exact ⟨c, rfl, h c (by simp)⟩
      | 3 => exact ⟨d, rfl, h d (by simp)⟩))) (.skip _)))

/-- A pattern all of whose words begin with four digits. -/
theorem begins_visibility {r : RE} (hc : r.closed = true)
    (hp : r.paths0.all (fun x => decide (4 ≤ (pathCls x.1).length) && ((pathCls x.1).take 4).all digitCC) = true)
    {w : PyStr} (h : Admits r w) (hn : 10 ∉ w) : Admits TafRegExp.VISIBILITY w := by
  obtain ⟨m, hm⟩ := h
  obtain ⟨x, hx, -, -, hs, -, -⟩ := RE.match_whole hc hm hn
  have e := List.all_eq_true.1 hp x hx
  rw [Bool.and_eq_true, decide_eq_true_eq] at e
  match hk : pathCls x.1 with
  | [] | [_] | [_, _] | [_, _, _] => rw [hk] at e; exact absurd e.1 (by simp)
  | k1 :: k2 :: k3 :: k4 :: ks =>
    rw [hk] at hs e
    obtain ⟨a, _, rfl, ha, b, _, rfl, hb, c, _, rfl, hc, d, _, rfl, hd, -⟩ := hs
    have e2 := e.2
    simp only [List.take_succ_cons, List.take_zero, List.all_cons, List.all_nil, Bool.and_eq_true] at e2
    refine four_digits_visibility ?_
    simp only [List.mem_cons, List.not_mem_nil, or_false]
    rintro y (rfl | rfl | rfl | rfl)
    · exact digitCC_mem e2.1 ha
    · exact digitCC_mem e2.2.1 hb
    · exact digitCC_mem e2.2.2.1 hc
    · exact digitCC_mem e2.2.2.2.1 hd

theorem time_visibility {w : PyStr} (h : Admits MetarRegExp.TIME w) (hn : 10 ∉ w) :
    Admits TafRegExp.VISIBILITY w := begins_visibility (by decide +kernel) (by decide +kernel) h hn

theorem valid_visibility {w : PyStr} (h : Admits TafRegExp.VALID w) (hn : 10 ∉ w) :
    Admits TafRegExp.VISIBILITY w := begins_visibility (by decide +kernel) (by decide +kernel) h hn

end Verif
