import Verif.Lemmas.Forms
import Verif.Lemmas.Digits
import Verif.Model.Base

/-
What a named group of a match can hold: lengths, digits, numeric bounds.
-/

namespace Verif

/-- Every shape the group can capture passes the test. -/
def RE.grpAll (r : RE) (n : Cap) (p : List CC → Bool) : Bool :=
  (r.bodies n).all fun a =>
    match a.shapes with
    | none => false
    | some l => l.all p

theorem RE.grpAll_sound {r : RE} {n : Cap} {p : List CC → Bool} (h : r.grpAll n p = true)
    {s : PyStr} {m : Match} (hm : r.match s = some m) {g : PyStr} (hg : m.group n = some g) :
    ∃ ks, p ks = true ∧ HasShape ks g := by
  have hmem := RE.match_mem hm
  unfold Match.group at hg
  simp only [Option.map_eq_some_iff] at hg
  obtain ⟨⟨i, j⟩, hl, rfl⟩ := hg
  rcases RE.captures_sound n r hmem (lookup_mem hl) with h1 | ⟨a, ha, x, y, hy, rfl, rfl⟩
  · simp at h1
  · have hs := List.all_eq_true.1 h a ha
    cases hsh : a.shapes with
    | none => simp [hsh] at hs
    | some l =>
      simp only [hsh] at hs
      obtain ⟨_, ks, hks, hk⟩ := RE.shapes_sound a hsh hy
      refine ⟨ks, List.all_eq_true.1 hs ks hks, ?_⟩
      rw [RE.match_string hm]
      exact hk

/-- The shape has one of the lengths. -/
def lenIn (ls : List Nat) (ks : List CC) : Bool := ls.contains ks.length

theorem RE.grp_length {r : RE} {n : Cap} {ls : List Nat} (h : r.grpAll n (lenIn ls) = true)
    {s : PyStr} {m : Match} (hm : r.match s = some m) {g : PyStr} (hg : m.group n = some g) :
    g.length ∈ ls := by
  obtain ⟨ks, hk, hs⟩ := RE.grpAll_sound h hm hg
  rw [hs.length]
  simpa [lenIn] using hk

/-- The class holds digits only. -/
def CC.digits (k : CC) : Bool := subRanges k.ranges digitRanges

theorem CC.digits_sound {k : CC} (h : k.digits = true) {c : Nat} (hc : k.mem c = true) :
    isDigit c = true := subRanges_sound h hc

/-- The shape holds digits only, and at least one. -/
def someDigits (ks : List CC) : Bool := ks != [] && ks.all CC.digits

theorem someDigits_sound {ks : List CC} (h : someDigits ks = true) {s : PyStr}
    (hs : HasShape ks s) : s ≠ [] ∧ Digits s := by
  simp only [someDigits, Bool.and_eq_true, bne_iff_ne, ne_eq] at h
  refine ⟨?_, ?_⟩
  · rintro rfl
    have := hs.length
    simp at this
    exact h.1 (List.length_eq_zero_iff.1 this.symm)
  · have h2 := h.2
    clear h
    induction ks generalizing s with
    | nil => cases hs; exact Digits.nil
    | cons k ks ih =>
      obtain ⟨c, t, rfl, hc, ht⟩ := hs
      simp only [List.all_cons, Bool.and_eq_true] at h2
      exact (ih ht h2.2).cons (CC.digits_sound h2.1 hc)

theorem RE.grp_digits {r : RE} {n : Cap} (h : r.grpAll n someDigits = true)
    {s : PyStr} {m : Match} (hm : r.match s = some m) {g : PyStr} (hg : m.group n = some g) :
    g ≠ [] ∧ Digits g := by
  obtain ⟨ks, hk, hs⟩ := RE.grpAll_sound h hm hg
  exact someDigits_sound hk hs

/-- The largest value of a digit in the class: for the ASCII ranges the bound is read off, anything
else counts as nine. -/
def CC.maxDigit (k : CC) : Nat :=
  match k with
  | .set rs => if rs.all (fun r => 48 ≤ r.1 && r.2 ≤ 57) then rs.foldl (fun a r => max a (r.2 - 48)) 0 else 9
  | _ => 9

theorem foldl_max_le (rs : List (Nat × Nat)) (a : Nat) :
    a ≤ rs.foldl (fun a r => max a (r.2 - 48)) a ∧
      ∀ r ∈ rs, r.2 - 48 ≤ rs.foldl (fun a r => max a (r.2 - 48)) a := by
  induction rs generalizing a with
  | nil => simp
  | cons x xs ih =>
    have := ih (max a (x.2 - 48))
    simp only [List.foldl_cons, List.mem_cons]
    refine ⟨by omega, ?_⟩
    rintro r (rfl | hr)
    · omega
    · exact this.2 r hr

theorem CC.maxDigit_sound {k : CC} {c : Nat} (hc : k.mem c = true) : digitVal c ≤ k.maxDigit := by
  have h9 : digitVal c ≤ 9 := by have := digitVal_lt c; omega
  unfold CC.maxDigit
  split
  · next rs =>
    split
    · next hall =>
      simp only [CC.mem, CC.ranges, inRanges, List.any_eq_true, Bool.and_eq_true, Nat.ble_eq] at hc
      obtain ⟨r, hr, h1, h2⟩ := hc
      have := List.all_eq_true.1 hall r hr
      simp only [Bool.and_eq_true, decide_eq_true_eq] at this
      have hd := digitVal_ascii (c - 48) (by omega)
      rw [show 48 + (c - 48) = c by omega] at hd
      rw [hd]
      have := (foldl_max_le rs 0).2 r hr
      omega
    · exact h9
  · exact h9

/-- The largest value of a digit text of the shape. -/
def maxVal (ks : List CC) : Nat := ks.foldl (fun n k => 10 * n + k.maxDigit) 0

theorem maxVal_foldl {ks : List CC} {s : PyStr} (hs : HasShape ks s) (a b : Nat) (hab : a ≤ b) :
    s.foldl (fun n c => 10 * n + digitVal c) a ≤ ks.foldl (fun n k => 10 * n + k.maxDigit) b := by
  induction ks generalizing s a b with
  | nil => cases hs; simpa using hab
  | cons k ks ih =>
    obtain ⟨c, t, rfl, hc, ht⟩ := hs
    simp only [List.foldl_cons]
    have := CC.maxDigit_sound hc
    exact ih ht _ _ (by omega)

theorem maxVal_sound {ks : List CC} {s : PyStr} (hs : HasShape ks s) : digitsVal s ≤ maxVal ks :=
  maxVal_foldl hs 0 0 (Nat.le_refl _)

/-- Digits only, with a value of at most `b`. -/
def digitsLe (b : Nat) (ks : List CC) : Bool := someDigits ks && Nat.ble (maxVal ks) b

theorem RE.grp_digitsLe {r : RE} {n : Cap} {b : Nat} (h : r.grpAll n (digitsLe b) = true)
    {s : PyStr} {m : Match} (hm : r.match s = some m) {g : PyStr} (hg : m.group n = some g) :
    g ≠ [] ∧ Digits g ∧ digitsVal g ≤ b := by
  obtain ⟨ks, hk, hs⟩ := RE.grpAll_sound h hm hg
  simp only [digitsLe, Bool.and_eq_true, Nat.ble_eq] at hk
  have := someDigits_sound hk.1 hs
  exact ⟨this.1, this.2, Nat.le_trans (maxVal_sound hs) hk.2⟩

/-- `int(m.group(n))` for a group that always holds digits. -/
theorem pyInt_group {r : RE} {n : Cap} {b : Nat} (h1 : r.must n = true)
    (h2 : r.grpAll n (digitsLe b) = true) {s : PyStr} {m : Match} (hm : r.match s = some m) :
    ∃ g, m.group n = some g ∧ Digits g ∧ digitsVal g ≤ b ∧ pyInt (m.group n) = .ok (digitsVal g) := by
  obtain ⟨g, hg⟩ := RE.must_group h1 hm
  obtain ⟨hn, hd, hb⟩ := RE.grp_digitsLe h2 hm hg
  refine ⟨g, hg, hd, hb, ?_⟩
  rw [hg]
  unfold pyInt
  simp only [intOf_digits hn hd]

theorem pyInt_digits {s : PyStr} (hn : s ≠ []) (h : Digits s) :
    pyInt (some s) = .ok (digitsVal s) := by
  unfold pyInt
  simp only [intOf_digits hn h]

theorem pyFloat_digits {s : PyStr} (hn : s ≠ []) (h : Digits s) :
    pyFloat (some s) = .ok (F64.mk' (digitsVal s : Nat) false) := by
  unfold pyFloat
  simp only [floatOf_digits hn h]

end Verif
