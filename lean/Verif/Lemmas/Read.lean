import Verif.Lemmas.RunErr
import Verif.Lemmas.Decoded
import Verif.Spec.Grammar

/-
Reading the groups of a report.
-/

namespace Verif

/-- The attribute is read from the group that was taken at its position. -/
theorem Spec.FromGroup.value {α : Type} {c : List (PyStr × Nat)} {i : Nat} {re : RE}
    {f : Match → Except Exc α} {d x : α} (h : Spec.FromGroup c i re f d x) (ho : Ordered c)
    {g : PyStr} (hg : (g, i) ∈ c) : ∃ m, re.match g = some m ∧ f m = .ok x := by
  rcases h with ⟨g', m, h1, h2, h3⟩ | ⟨h1, -⟩
  · rw [ho.unique hg h1]
    exact ⟨m, h2, h3⟩
  · exact absurd hg (h1 g)

theorem Spec.FromGroup.absent {α : Type} {c : List (PyStr × Nat)} {i : Nat} {re : RE}
    {f : Match → Except Exc α} {d x : α} (h : Spec.FromGroup c i re f d x)
    (hg : ∀ g, (g, i) ∉ c) : x = d := by
  rcases h with ⟨g', m, h1, -⟩ | ⟨-, h1⟩
  · exact absurd h1 (hg g')
  · exact h1

theorem Spec.Reads.ifOk {γ α : Type} {G : Spec.Grammar γ α} {re : RE} {f : Match → Except Exc α}
    (h : Spec.Reads G re f) : Spec.ReadsIfOk G re f := by
  refine ⟨fun w hw => ?_, h.2⟩
  obtain ⟨m, x, h1, h2, h3⟩ := h.1 w hw
  refine ⟨m, h1, fun y hy => ?_⟩
  rw [h2] at hy
  cases hy
  exact h3

theorem Spec.ReadsIfOk.says {γ α : Type} {G : Spec.Grammar γ α} {re : RE}
    {f : Match → Except Exc α} (h : Spec.ReadsIfOk G re f) {g : PyStr} (hn : 10 ∉ g) {m : Match}
    (hm : re.match g = some m) {x : α} (hx : f m = .ok x) : Spec.SaysText G g x := by
  refine ⟨h.2 g m hm hn, fun w hw e => ?_⟩
  subst e
  obtain ⟨m', h1, h2⟩ := h.1 w hw
  rw [hm] at h1
  cases h1
  exact h2 x hx

theorem Spec.ReadsIfOk.at {γ α : Type} {G : Spec.Grammar γ α} {re : RE} {f : Match → Except Exc α}
    (h : Spec.ReadsIfOk G re f) {c : List (PyStr × Nat)} {i : Nat} {d x : α}
    (hx : Spec.FromGroup c i re f d x) (ho : Ordered c) (hn : ∀ g i, (g, i) ∈ c → 10 ∉ g) :
    Spec.ReadAt c i G d x := by
  refine ⟨fun g hg => ?_, fun w hw hg => ?_, hx.absent⟩
  · obtain ⟨m, hm, hf⟩ := hx.value ho hg
    exact (h.says (hn _ _ hg) hm hf).1
  · obtain ⟨m, hm, hf⟩ := hx.value ho hg
    exact (h.says (hn _ _ hg) hm hf).2 w hw rfl

theorem taken_mem {c : List (PyStr × Nat)} {lo hi : Nat} {g : PyStr} (h : g ∈ Spec.taken c lo hi) :
    ∃ i, lo ≤ i ∧ i ≤ hi ∧ (g, i) ∈ c := by
  unfold Spec.taken at h
  simp only [List.mem_map, List.mem_filter, decide_eq_true_eq] at h
  obtain ⟨⟨g', i⟩, ⟨h1, h2⟩, rfl⟩ := h
  exact ⟨i, h2.1, h2.2, h1⟩

theorem Spec.Each.imp_mem {α β : Type} {R S : α → β → Prop} {as : List α} {bs : List β}
    (h : Spec.Each R as bs) (hi : ∀ a ∈ as, ∀ b, R a b → S a b) : Spec.Each S as bs := by
  induction h with
  | nil => exact .nil
  | cons h1 _ ih =>
    exact .cons (hi _ (by simp) _ h1) (ih fun a ha b hb => hi a (by simp [ha]) b hb)

theorem Spec.ReadsIfOk.all {γ α : Type} {G : Spec.Grammar γ α} {re : RE} {f : Match → Except Exc α}
    (h : Spec.ReadsIfOk G re f) {c : List (PyStr × Nat)} {lo hi : Nat} {xs : List α}
    (hx : Spec.FromGroups c lo hi re f xs) (hn : ∀ g i, (g, i) ∈ c → 10 ∉ g) :
    Spec.ReadAll c lo hi G xs := by
  refine Spec.Each.imp_mem hx fun g hg x ⟨m, hm, hf⟩ => ?_
  obtain ⟨i, -, -, hi⟩ := taken_mem hg
  exact h.says (hn _ _ hi) hm hf

theorem Spec.ReadsIfOk.last {γ α : Type} {G : Spec.Grammar γ α} {re : RE} {f : Match → Except Exc α}
    (h : Spec.ReadsIfOk G re f) {c : List (PyStr × Nat)} {lo hi : Nat} {d x : α}
    (hx : Spec.FromLast c lo hi re f d x) (hn : ∀ g i, (g, i) ∈ c → 10 ∉ g) :
    Spec.ReadLast c lo hi G d x := by
  rcases hx with ⟨g, m, h1, h2, h3⟩ | ⟨h1, h2⟩
  · refine ⟨fun g' hg' => ?_, fun he => ?_⟩
    · rw [h1] at hg'
      cases hg'
      obtain ⟨i, -, -, hi⟩ := taken_mem (List.mem_of_getLast? h1)
      exact h.says (hn _ _ hi) h2 h3
    · rw [he] at h1; cases h1
  · refine ⟨fun g hg => ?_, fun _ => h2⟩
    rw [h1] at hg; cases hg

end Verif
