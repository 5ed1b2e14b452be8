import Verif.Lemmas.Inverse
import Verif.Lemmas.Digits

/-
Patterns that match exactly the texts of a finite list of forms.
-/

namespace Verif

/-- The pattern matches exactly the (newline-free) texts of these forms, with these groups. -/
def RE.exact (r : RE) (table : List Form) : Bool :=
  r.inForms table && table.all fun f => r.chk f.1 f.2

theorem RE.exact_match {r : RE} {table : List Form} (h : r.exact table = true) {f : Form}
    (hf : f ∈ table) {ts : List PyStr} (hs : Shapes f.1 ts) :
    ∃ m, r.match ts.flatten = some m ∧ m.string = ts.flatten ∧
      ∀ co ∈ f.2, m.group co.1 = co.2.map fun i => (ts[i]?).getD [] := by
  unfold RE.exact at h
  rw [Bool.and_eq_true, List.all_eq_true] at h
  exact RE.chk_sound (h.2 f hf) hs

theorem RE.exact_only {r : RE} {table : List Form} (h : r.exact table = true) {s : PyStr}
    {m : Match} (hm : r.match s = some m) (hn : 10 ∉ s) :
    ∃ f ∈ table, ∃ ts, Shapes f.1 ts ∧ s = ts.flatten := by
  unfold RE.exact at h
  rw [Bool.and_eq_true] at h
  obtain ⟨f, hf, ts, h1, h2, -⟩ := RE.inForms_sound h.1 hm hn
  exact ⟨f, hf, ts, h1, h2⟩

/-- The pattern matches the texts of these forms, and only texts that begin so. -/
def RE.begins (r : RE) (table : List Form) : Bool :=
  r.inFormsP table && table.all fun f => r.chk f.1 f.2

theorem RE.begins_match {r : RE} {table : List Form} (h : r.begins table = true) {f : Form}
    (hf : f ∈ table) {ts : List PyStr} (hs : Shapes f.1 ts) :
    ∃ m, r.match ts.flatten = some m ∧ m.string = ts.flatten ∧
      ∀ co ∈ f.2, m.group co.1 = co.2.map fun i => (ts[i]?).getD [] := by
  unfold RE.begins at h
  rw [Bool.and_eq_true, List.all_eq_true] at h
  exact RE.chk_sound (h.2 f hf) hs

theorem RE.begins_only {r : RE} {table : List Form} (h : r.begins table = true) {s : PyStr}
    {m : Match} (hm : r.match s = some m) :
    ∃ f ∈ table, ∃ ts rest, Shapes f.1 ts ∧ s = ts.flatten ++ rest ∧
      ∀ co ∈ f.2, m.group co.1 = co.2.map fun i => (ts[i]?).getD [] := by
  unfold RE.begins at h
  rw [Bool.and_eq_true] at h
  exact RE.inFormsP_sound h.1 hm

theorem Shapes.cons_inv {k : List CC} {ks : List (List CC)} {ts : List PyStr}
    (h : Shapes (k :: ks) ts) : ∃ t ts', ts = t :: ts' ∧ HasShape k t ∧ Shapes ks ts' := by
  cases ts with
  | nil => exact h.elim
  | cons t ts => exact ⟨t, ts, rfl, h.1, h.2⟩

theorem Shapes.nil_inv {ts : List PyStr} (h : Shapes [] ts) : ts = [] := by
  cases ts with
  | nil => rfl
  | cons t ts => exact h.elim

theorem CC.mem_range {a b c : Nat} : (CC.set [(a, b)]).mem c = true ↔ a ≤ c ∧ c ≤ b := by
  simp [CC.mem, CC.ranges, inRanges]

/-- `HasShape`, computed. -/
def hasShapeB : List CC → PyStr → Bool
  | [], s => s.isEmpty
  | k :: ks, c :: t => k.mem c && hasShapeB ks t
  | _ :: _, [] => false

theorem hasShapeB_sound {ks : List CC} {s : PyStr} (h : hasShapeB ks s = true) : HasShape ks s := by
  induction ks generalizing s with
  | nil =>
    cases s with
    | nil => exact rfl
    | cons c t => cases h
  | cons k ks ih =>
    cases s with
    | nil => cases h
    | cons c t =>
      simp only [hasShapeB, Bool.and_eq_true] at h
      exact ⟨c, t, rfl, h.1, ih h.2⟩

/-- A text of `n` digits. -/
theorem hasShape_digits {n : Nat} {s : PyStr} (h : Digits s) (hl : s.length = n) :
    HasShape (List.replicate n .digit) s := by
  subst hl
  exact hasShape_of_all h

end Verif
