import Verif.Lemmas.Own
import Verif.Lemmas.Ambiguity
import Verif.Spec.LeftOut

/-
Helper lemmas for C110.
-/

namespace Verif
open Spec

variable {σ : Type}

/-- `d'` has some of the groups of `d`, at the same places or earlier ones, that accept them, from `b` on. -/
inductive Lowered (hs : List (Handler σ)) (b : Nat) : List (PyStr × Nat) → List (PyStr × Nat) → Prop
  | nil : Lowered hs b [] []
  | drop {x d' d} : Lowered hs b d' d → Lowered hs b d' (x :: d)
  | keep {w i' i d' d} : b ≤ i' → i' ≤ i → Accepts hs i' w → Lowered hs b d' d →
      Lowered hs b ((w, i') :: d') ((w, i) :: d)

theorem Lowered.weaken {hs : List (Handler σ)} {b b' : Nat} (hb : b' ≤ b) {d' d : List (PyStr × Nat)}
    (h : Lowered hs b d' d) : Lowered hs b' d' d := by
  induction h with
  | nil => exact .nil
  | drop _ ih => exact .drop ih
  | keep h1 h2 h3 _ ih => exact .keep (Nat.le_trans hb h1) h2 h3 ih

/-- Leaving out groups of a section that is read completely: what stays is read completely, at the same places
or earlier ones. -/
theorem assign_leftOut (hs : List (Handler σ)) {gs' gs : List PyStr} (hsub : gs'.Sublist gs) {b' b : Nat}
    (hb : b' ≤ b) (hu : leftover gs (assign hs b gs) = []) :
    leftover gs' (assign hs b' gs') = [] ∧
      Lowered hs b' (consumed gs' (assign hs b' gs')) (consumed gs (assign hs b gs)) := by
  induction hsub generalizing b b' with
  | slnil => exact ⟨rfl, .nil⟩
  | @cons gs' gs g hsub ih =>
    rw [assign] at hu
    rw [assign.eq_def hs b (g :: gs)]
    cases ht : tryHandlers (hs.drop b) g 0 with
    | none => rw [ht] at hu; simp [leftover_none] at hu
    | some x =>
      obtain ⟨n, m, f⟩ := x
      rw [ht] at hu
      simp only [leftover_some] at hu
      have := ih (Nat.le_trans hb (Nat.le_add_right b n)) hu
      simp only [ht, consumed_cons_some]
      exact ⟨this.1, .drop this.2⟩
  | @cons_cons gs' gs g hsub ih =>
    unfold assign at hu ⊢
    cases ht : tryHandlers (hs.drop b) g 0 with
    | none => rw [ht] at hu; simp [leftover_none] at hu
    | some x =>
      obtain ⟨n, m, f⟩ := x
      rw [ht] at hu
      simp only [leftover_some] at hu
      cases ht' : tryHandlers (hs.drop b') g 0 with
      | none => rw [tryHandlers_none_mono hb ht'] at ht; cases ht
      | some x' =>
        obtain ⟨n', m', f'⟩ := x'
        obtain ⟨i, e1, e2, e3, -⟩ := tryHandlers_some ht
        obtain ⟨i', e1', e2', e3', e4'⟩ := tryHandlers_some ht'
        rw [List.getElem?_drop] at e2 e2'
        have hle : b' + i' ≤ b + i := by
          refine Nat.le_of_not_lt fun hlt => ?_
          have := e4' (b + i - b') f (by omega) (by rw [List.getElem?_drop, ← e2]; congr 1; omega)
          rw [e3] at this
          cases this
        have := ih (b' := b' + n') (b := b + n) (by omega) hu
        simp only [leftover_some, consumed_cons_some]
        refine ⟨this.1, .keep (by omega) (by omega) ?_ (this.2.weaken (by omega))⟩
        rw [show b' + n' - 1 = b' + i' by omega]
        exact ⟨f', e2', by rw [e3']; rfl⟩

/-- The place from which on the loop goes on behind some groups. -/
theorem assign_behind (hs : List (Handler σ)) (gs : List PyStr) (k : Nat) :
    ∃ k', k ≤ k' ∧ (∀ x ∈ consumed gs (assign hs k gs), x.2 < k') ∧
      ∀ more, assign hs k (gs ++ more) = assign hs k gs ++ assign hs k' more := by
  induction gs generalizing k with
  | nil => exact ⟨k, Nat.le_refl k, nofun, fun _ => rfl⟩
  | cons g gs ih =>
    cases ht : tryHandlers (hs.drop k) g 0 with
    | none =>
      obtain ⟨k', h1, h2, h3⟩ := ih k
      refine ⟨k', h1, ?_, fun more => by simp [assign, ht, h3]⟩
      intro x hx
      simp only [assign, ht, consumed_cons_none] at hx
      exact h2 x hx
    | some x =>
      obtain ⟨n, m, f⟩ := x
      obtain ⟨i, e1, -⟩ := tryHandlers_some ht
      obtain ⟨k', h1, h2, h3⟩ := ih (k + n)
      refine ⟨k', by omega, ?_, fun more => by simp [assign, ht, h3]⟩
      intro x hx
      simp only [assign, ht, consumed_cons_some, List.mem_cons] at hx
      rcases hx with rfl | hx
      · simp only; omega
      · exact h2 x hx

theorem Lowered.withKinds {κ : Type} {hs : List (Handler σ)} {ks : List κ} {p : κ → RE}
    (e : hs.map Handler.regexp = ks.map p) {b : Nat} {c0 d' d : List (PyStr × Nat)}
    (hb : ∀ y ∈ c0, y.2 < b) (hd : ∀ x ∈ d, ∃ k, ks[x.2]? = some k) (hf : FirstOfKind ks p c0 d)
    (h : Lowered hs b d' d) : (Spec.withKinds ks d').Sublist (Spec.withKinds ks d) := by
  induction h with
  | nil => exact .slnil
  | drop _ ih =>
    exact (ih (fun x hx => hd x (List.mem_cons_of_mem _ hx)) fun x hx => hf x (List.mem_cons_of_mem _ hx)).cons _
  | @keep w i' i d' d h1 h2 h3 _ ih =>
    have := ih (fun x hx => hd x (List.mem_cons_of_mem _ hx)) fun x hx => hf x (List.mem_cons_of_mem _ hx)
    have hk : ks[i']? = ks[i]? := by
      rcases Nat.lt_or_eq_of_le h2 with hlt | rfl
      · obtain ⟨f, hf1, hf2⟩ := h3
        have he := congrArg (·[i']?) e
        simp only [List.getElem?_map, hf1, Option.map_some] at he
        cases hk : ks[i']? with
        | none => rw [hk] at he; cases he
        | some k =>
          rw [hk, Option.map_some, Option.some.injEq] at he
          refine (hf (w, i) (List.mem_cons_self ..) i' k hlt ?_ hk ?_).symm
          · exact fun y hy => Nat.lt_of_lt_of_le (hb y hy) h1
          · rw [← he]
            exact Option.isSome_iff_exists.1 hf2
      · rfl
    simp only [Spec.withKinds, List.map_cons, hk] at this ⊢
    exact this.cons_cons _

theorem consumed_whole {gs : List PyStr} {asg : List (Option Nat)} (hl : asg.length = gs.length)
    (h : leftover gs asg = []) : (consumed gs asg).map (·.1) = gs := by
  induction gs generalizing asg with
  | nil => rfl
  | cons g gs ih =>
    cases asg with
    | nil => simp at hl
    | cons o asg =>
      cases o with
      | none => simp [leftover_none] at h
      | some i =>
        rw [leftover_some] at h
        rw [consumed_cons_some, List.map_cons, ih (by simpa using hl) h]

/-- Groups of a section, the last of which are read completely. -/
theorem decodes_leftOut {κ : Type} {hs : List (Handler σ)} {ks : List κ} {p : κ → RE}
    (e : hs.map Handler.regexp = ks.map p) {head tail tail' : List PyStr} (hsub : tail'.Sublist tail)
    {c0 d c' : List (PyStr × Nat)} {un un' : List PyStr} (h0 : Decodes hs head c0)
    (hc : Decodes hs (head ++ tail) (c0 ++ d)) (hc' : Decodes hs (head ++ tail') c')
    (hu0 : Leaves hs head un) (hu : Leaves hs (head ++ tail) un) (hu' : Leaves hs (head ++ tail') un')
    (hf : FirstOfKind ks p c0 d) :
    un' = un ∧ ∃ d', c' = c0 ++ d' ∧ d'.map (·.1) = tail' ∧ (withKinds ks d').Sublist (withKinds ks d) := by
  have lv : ∀ {gs un}, Leaves hs gs un → un = leftover gs (assign hs 0 gs) := by
    rintro gs un ⟨asg, h1, h2, rfl⟩
    rw [firstApplicable_unique hs gs asg _ h1 (assign_length hs 0 gs) h2 (assign_firstApplicable hs gs)]
  have hd : ∀ x ∈ d, ∃ k, ks[x.2]? = some k := by
    intro x hx
    obtain ⟨k, hk, -⟩ := taken_kind e hc (g := x.1) (i := x.2) (List.mem_append_right _ hx)
    exact ⟨k, hk⟩
  rw [decodes_iff] at h0 hc hc'
  have hu0 := lv hu0
  have hu := lv hu
  have hu' := lv hu'
  obtain ⟨k', -, h2, h3⟩ := assign_behind hs head 0
  rw [h3, consumed_append (assign_length hs 0 head)] at hc hc'
  rw [h3, leftover_append (assign_length hs 0 head), ← hu0] at hu hu'
  rw [← h0] at hc hc' h2
  have hu : leftover tail (assign hs k' tail) = [] := by simpa using hu
  have hd' := List.append_cancel_left hc
  obtain ⟨l1, l2⟩ := assign_leftOut hs hsub (Nat.le_refl k') hu
  rw [l1, List.append_nil] at hu'
  refine ⟨hu', _, hc', ?_, ?_⟩
  · exact consumed_whole (assign_length hs k' tail') l1
  · rw [← hd'] at l2
    exact l2.withKinds e h2 hd hf

/-- The places of one kind. -/
theorem taken_kinds {κ : Type} [DecidableEq κ] {ks : List κ} {K : κ} {lo hi : Nat}
    (h : ∀ i, ks[i]? = some K ↔ lo ≤ i ∧ i ≤ hi) (c : List (PyStr × Nat)) :
    taken c lo hi = ((withKinds ks c).filter fun x => decide (x.2 = some K)).map (·.1) := by
  unfold taken withKinds
  rw [List.filter_map, List.map_map]
  congr 1
  apply List.filter_congr
  intro x _
  simp only [Function.comp, decide_eq_decide]
  exact (h x.2).symm

theorem taken_sublist {κ : Type} [DecidableEq κ] {ks : List κ} {K : κ} {lo hi : Nat}
    (h : ∀ i, ks[i]? = some K ↔ lo ≤ i ∧ i ≤ hi) {c' c : List (PyStr × Nat)}
    (hs : (withKinds ks c').Sublist (withKinds ks c)) : (taken c' lo hi).Sublist (taken c lo hi) := by
  rw [taken_kinds h, taken_kinds h]
  exact (hs.filter _).map _

theorem taken_one {c : List (PyStr × Nat)} (ho : Ordered c) (i : Nat) : (taken c i i).length ≤ 1 := by
  unfold taken
  rw [List.length_map]
  induction c with
  | nil => simp
  | cons x c ih =>
    obtain ⟨h1, h2⟩ := List.pairwise_cons.1 ho
    rw [List.filter_cons]
    split
    · next h =>
      rw [decide_eq_true_eq] at h
      have : c.filter (fun y => decide (i ≤ y.2 ∧ y.2 ≤ i)) = [] := by
        rw [List.filter_eq_nil_iff]
        intro y hy
        have := h1 y hy
        simp only [decide_eq_true_eq]
        omega
      rw [this]
      simp
    · exact ih h2

/-- A single attribute, with or without its group. -/
theorem FromGroup.less {α : Type} {c c' : List (PyStr × Nat)} (ho : Ordered c) {i : Nat} {re : RE}
    {f : Match → Except Exc α} {d x x' : α} (h : FromGroup c i re f d x) (h' : FromGroup c' i re f d x')
    (hs : (taken c' i i).Sublist (taken c i i)) : SameOrGone c c' i d x x' := by
  have h1 := taken_one ho i
  by_cases he : taken c' i i = []
  · have hno : ∀ g, (g, i) ∉ c' := by
      intro g hg
      rw [mem_taken, he] at hg
      cases hg
    rcases h' with ⟨g, m, e1, -⟩ | ⟨-, e⟩
    · exact absurd e1 (hno g)
    · by_cases hg : ∃ g, (g, i) ∈ c
      · exact .inr ⟨e, hg, hno⟩
      · rcases h with ⟨g, m, e1, -⟩ | ⟨-, e2⟩
        · exact absurd ⟨g, e1⟩ hg
        · exact .inl (e.trans e2.symm)
  · have : 1 ≤ (taken c' i i).length := by
      cases ht : taken c' i i with
      | nil => exact absurd ht he
      | cons y l => simp
    have := hs.length_le
    have e : SameAt c c' i i := (hs.eq_of_length (by omega)).symm
    exact .inl (FromGroup.same ho h h' e).symm

theorem each_sublist {α β γ : Type} {f : α → Option γ} {k : γ → Except Exc β} {l' l : List α} {xs' xs : List β}
    (hs : l'.Sublist l) (h : Each (fun g x => ∃ m, f g = some m ∧ k m = .ok x) l xs)
    (h' : Each (fun g x => ∃ m, f g = some m ∧ k m = .ok x) l' xs') : xs'.Sublist xs := by
  induction hs generalizing xs' xs with
  | slnil => cases h'; exact List.nil_sublist _
  | cons a _ ih =>
    cases h with
    | cons _ h => exact (ih h h').cons _
  | cons_cons a _ ih =>
    cases h with
    | cons hx h => cases h' with
      | cons hx' h' =>
        obtain ⟨m, e1, e2⟩ := hx
        obtain ⟨m', e1', e2'⟩ := hx'
        obtain rfl := Option.some.inj (e1.symm.trans e1')
        obtain rfl := Except.ok.inj (e2.symm.trans e2')
        exact (ih h h').cons_cons _

theorem FromGroups.less {α : Type} {c c' : List (PyStr × Nat)} {lo hi : Nat} {re : RE}
    {f : Match → Except Exc α} {x x' : List α} (h : FromGroups c lo hi re f x)
    (h' : FromGroups c' lo hi re f x') (hs : (taken c' lo hi).Sublist (taken c lo hi)) : x'.Sublist x :=
  each_sublist hs h h'

theorem FromLast.less {α : Type} {c c' : List (PyStr × Nat)} {lo hi : Nat} {re : RE}
    {f : Match → Except Exc α} {d x x' : α} (h : FromLast c lo hi re f d x) (h' : FromLast c' lo hi re f d x')
    (hs : (taken c' lo hi).getLast? = (taken c lo hi).getLast?) : x' = x := by
  unfold FromLast at h h'
  rw [hs] at h'
  rcases h with ⟨g, m, e1, e2, e3⟩ | ⟨e1, e2⟩ <;> rcases h' with ⟨g', m', e1', e2', e3'⟩ | ⟨e1', e2'⟩
  · obtain rfl := Option.some.inj (e1.symm.trans e1')
    obtain rfl := Option.some.inj (e2.symm.trans e2')
    exact (Except.ok.inj (e3.symm.trans e3')).symm
  · simp_all
  · simp_all
  · rw [e2, e2']

end Verif
