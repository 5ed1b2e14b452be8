import Verif.Py.Float
import Verif.Lemmas.Float
import Verif.Lemmas.Regex

/-
Strings of decimal digits: their value, `int()` and `float()` of them, and the digits of a number.
-/

namespace Verif

/-- All characters are digits. -/
def Digits (s : PyStr) : Prop := ∀ c ∈ s, isDigit c = true

theorem Digits.nil : Digits [] := by simp [Digits]
theorem Digits.cons {c : Nat} {t : PyStr} (h : isDigit c = true) (ht : Digits t) :
    Digits (c :: t) := by
  intro x hx
  rcases List.mem_cons.1 hx with rfl | hx
  · exact h
  · exact ht x hx
theorem Digits.append {a b : PyStr} (ha : Digits a) (hb : Digits b) : Digits (a ++ b) := by
  intro x hx
  rcases List.mem_append.1 hx with hx | hx
  · exact ha x hx
  · exact hb x hx
theorem Digits.all {s : PyStr} (h : Digits s) : s.all isDigit = true := by
  simpa [Digits, List.all_eq_true] using h

theorem digitVal_lt (c : Nat) : digitVal c < 10 := by
  unfold digitVal
  split
  · next a h =>
    have := List.find?_some h
    simp only [Bool.and_eq_true, Nat.ble_eq] at this
    omega
  · omega

theorem digitsVal_foldl (s : PyStr) (n : Nat) :
    s.foldl (fun n c => 10 * n + digitVal c) n = n * 10 ^ s.length + digitsVal s := by
  unfold digitsVal
  induction s generalizing n with
  | nil => simp
  | cons c t ih =>
    simp only [List.foldl_cons, List.length_cons]
    rw [ih, ih (10 * 0 + digitVal c), Nat.pow_succ]
    grind

theorem digitsVal_append (a b : PyStr) :
    digitsVal (a ++ b) = digitsVal a * 10 ^ b.length + digitsVal b := by
  have := digitsVal_foldl b (digitsVal a)
  rw [← this]
  simp [digitsVal, List.foldl_append]

theorem digitsVal_cons (c : Nat) (t : PyStr) :
    digitsVal (c :: t) = digitVal c * 10 ^ t.length + digitsVal t := by
  have := digitsVal_append [c] t
  simpa [digitsVal] using this

theorem digitsVal_lt (s : PyStr) : digitsVal s < 10 ^ s.length := by
  induction s with
  | nil => simp [digitsVal]
  | cons c t ih =>
    rw [digitsVal_cons, List.length_cons, Nat.pow_succ]
    have := digitVal_lt c
    have : digitVal c * 10 ^ t.length ≤ 9 * 10 ^ t.length := Nat.mul_le_mul_right _ (by omega)
    omega

theorem intOf_digits {s : PyStr} (hn : s ≠ []) (h : Digits s) : intOf s = some (digitsVal s) := by
  unfold intOf
  rw [if_pos ⟨hn, h.all⟩]

theorem Digits.ne {s : PyStr} (h : Digits s) {c : Nat} (hc : isDigit c = false) : c ∉ s := by
  intro hm
  rw [h c hm] at hc
  exact absurd hc (by simp)

theorem splitC_absent (sep : Nat) (s : PyStr) (h : sep ∉ s) : splitC sep s = [s] := by
  induction s with
  | nil => rfl
  | cons c t ih =>
    simp only [List.mem_cons, not_or] at h
    unfold splitC
    rw [if_neg (Ne.symm h.1), ih h.2]

theorem decOf_digits {s : PyStr} (hn : s ≠ []) (h : Digits s) :
    decOf s = some ((digitsVal s : Nat) : Rat) := by
  unfold decOf
  rw [splitC_absent 46 s (h.ne (by decide))]
  simp only
  rw [if_pos ⟨hn, h.all⟩]

theorem floatOf_digits {s : PyStr} (hn : s ≠ []) (h : Digits s) :
    floatOf s = some (F64.mk' (digitsVal s : Nat) false) := by
  unfold floatOf
  split
  · exact absurd (h 45 (by simp)) (by decide)
  · rw [decOf_digits hn h]; rfl

/-- Up to fifteen digits the number is exact. -/
theorem floatOf_digits_exact {s : PyStr} (hn : s ≠ []) (h : Digits s) (hl : s.length ≤ 15) :
    floatOf s = some ⟨(digitsVal s : Nat), false⟩ := by
  rw [floatOf_digits hn h, F64.mk'_false, rnd_natCast]
  have h1 := digitsVal_lt s
  have h2 : 10 ^ s.length ≤ 10 ^ 15 := Nat.pow_le_pow_right (by omega) hl
  omega

/-! ### Printing -/

theorem digitVal_ascii (d : Nat) (h : d < 10) : digitVal (48 + d) = d := by
  have : ∀ d : Fin 10, digitVal (48 + d.val) = d.val := by decide
  exact this ⟨d, h⟩

/-- The ASCII digits. -/
def ascii : CC := .set [(48, 57)]

theorem mem_ascii {c : Nat} : ascii.mem c = true ↔ 48 ≤ c ∧ c ≤ 57 := by
  simp [ascii, CC.mem, CC.ranges, inRanges]

theorem isDigit_ascii {c : Nat} (h : ascii.mem c = true) : isDigit c = true :=
  subRanges_sound (a := [(48, 57)]) (by decide) h

theorem natStrGo_spec (f n : Nat) (h : n ≤ f) :
    (∀ c ∈ natStrGo f n, ascii.mem c = true) ∧ digitsVal (natStrGo f n) = n ∧
      natStrGo f n ≠ [] ∧ ∀ w, 0 < w → n < 10 ^ w → (natStrGo f n).length ≤ w := by
  induction f generalizing n with
  | zero =>
    have : n = 0 := by omega
    subst this
    refine ⟨?_, by decide, by decide, fun w hw _ => ?_⟩
    · simp [natStrGo, mem_ascii]
    · simp [natStrGo]; omega
  | succ f ih =>
    unfold natStrGo
    split
    · next hlt =>
      refine ⟨?_, ?_, by simp, fun w hw _ => by simp; omega⟩
      · simp only [List.mem_singleton, forall_eq, mem_ascii]; omega
      · simp [digitsVal, digitVal_ascii n hlt]
    · next hge =>
      have hd : n % 10 < 10 := Nat.mod_lt _ (by omega)
      obtain ⟨h1, h2, h3, h4⟩ := ih (n / 10) (by omega)
      refine ⟨?_, ?_, by simp, fun w hw hn => ?_⟩
      · intro c hc
        rcases List.mem_append.1 hc with hc | hc
        · exact h1 c hc
        · simp only [List.mem_singleton] at hc
          subst hc
          rw [mem_ascii]; omega
      · rw [digitsVal_append, h2]
        simp [digitsVal, digitVal_ascii _ hd]
        omega
      · obtain ⟨w, rfl⟩ : ∃ k, w = k + 1 := ⟨w - 1, by omega⟩
        simp only [List.length_append, List.length_singleton]
        rw [Nat.pow_succ] at hn
        have hw0 : 0 < w := by
          rcases Nat.eq_zero_or_pos w with rfl | h
          · simp at hn; omega
          · exact h
        have := h4 w hw0 (by omega)
        omega

theorem natStr_ascii (n : Nat) : ∀ c ∈ natStr n, ascii.mem c = true :=
  (natStrGo_spec n n (Nat.le_refl _)).1
theorem natStr_val (n : Nat) : digitsVal (natStr n) = n := (natStrGo_spec n n (Nat.le_refl _)).2.1
theorem natStr_ne (n : Nat) : natStr n ≠ [] := (natStrGo_spec n n (Nat.le_refl _)).2.2.1
theorem natStr_length (n w : Nat) (hw : 0 < w) (h : n < 10 ^ w) : (natStr n).length ≤ w :=
  (natStrGo_spec n n (Nat.le_refl _)).2.2.2 w hw h

theorem digitsVal_zeros (k : Nat) (s : PyStr) :
    digitsVal (List.replicate k 48 ++ s) = digitsVal s := by
  induction k with
  | zero => rfl
  | succ k ih =>
    rw [List.replicate_succ, List.cons_append, digitsVal_cons, ih]
    have : digitVal 48 = 0 := by decide
    simp [this]

theorem padNat_ascii (w n : Nat) : ∀ c ∈ padNat w n, ascii.mem c = true := by
  intro c hc
  unfold padNat at hc
  rcases List.mem_append.1 hc with hc | hc
  · rw [(List.mem_replicate.1 hc).2, mem_ascii]; omega
  · exact natStr_ascii n c hc

theorem padNat_val (w n : Nat) : digitsVal (padNat w n) = n := by
  unfold padNat
  rw [digitsVal_zeros, natStr_val]

theorem padNat_ne (w n : Nat) : padNat w n ≠ [] := by
  unfold padNat
  simp [natStr_ne]

theorem padNat_length (w n : Nat) (hw : 0 < w) (h : n < 10 ^ w) : (padNat w n).length = w := by
  unfold padNat
  have := natStr_length n w hw h
  simp
  omega

theorem padNat_digits (w n : Nat) : Digits (padNat w n) := fun c hc =>
  isDigit_ascii (padNat_ascii w n c hc)

theorem natStr_digits (n : Nat) : Digits (natStr n) := fun c hc =>
  isDigit_ascii (natStr_ascii n c hc)

theorem hasShape_of_all {k : CC} {s : PyStr} (h : ∀ c ∈ s, k.mem c = true) :
    HasShape (List.replicate s.length k) s := by
  induction s with
  | nil => exact rfl
  | cons c t ih =>
    exact HasShape.cons (h c (by simp)) (ih fun d hd => h d (by simp [hd]))

theorem padNat_shape (w n : Nat) (hw : 0 < w) (h : n < 10 ^ w) :
    HasShape (List.replicate w ascii) (padNat w n) := by
  have := hasShape_of_all (padNat_ascii w n)
  rwa [padNat_length w n hw h] at this

theorem HasShape.all {k : CC} {n : Nat} {s : PyStr} (h : HasShape (List.replicate n k) s) :
    ∀ c ∈ s, k.mem c = true := by
  induction n generalizing s with
  | zero => cases h; simp
  | succ n ih =>
    obtain ⟨c, t, rfl, hc, h⟩ := h
    intro x hx
    rcases List.mem_cons.1 hx with rfl | hx
    · exact hc
    · exact ih h x hx

/-- A string of `n` decimal digits of any script. -/
theorem HasShape.digits {n : Nat} {s : PyStr} (h : HasShape (List.replicate n .digit) s) :
    Digits s ∧ s.length = n :=
  ⟨h.all, by simpa using h.length⟩

/-- The only string of ASCII digits with a given length and value. -/
theorem ascii_digits_unique {a b : PyStr} (ha : ∀ c ∈ a, ascii.mem c = true)
    (hb : ∀ c ∈ b, ascii.mem c = true) (hl : a.length = b.length)
    (hv : digitsVal a = digitsVal b) : a = b := by
  induction a generalizing b with
  | nil => cases b with
    | nil => rfl
    | cons c t => simp at hl
  | cons c t ih =>
    cases b with
    | nil => simp at hl
    | cons d u =>
      rw [digitsVal_cons, digitsVal_cons] at hv
      have hl' : t.length = u.length := by simpa using hl
      have h1 := digitsVal_lt t
      have h2 := digitsVal_lt u
      rw [hl'] at hv h1
      have hcd : digitVal c = digitVal d := by
        have e1 : (digitVal c * 10 ^ u.length + digitsVal t) / 10 ^ u.length = digitVal c := by
          rw [Nat.mul_comm, Nat.mul_add_div (Nat.pow_pos (by omega)), Nat.div_eq_of_lt h1]; omega
        have e2 : (digitVal d * 10 ^ u.length + digitsVal u) / 10 ^ u.length = digitVal d := by
          rw [Nat.mul_comm, Nat.mul_add_div (Nat.pow_pos (by omega)), Nat.div_eq_of_lt h2]; omega
        rw [← e1, ← e2, hv]
      have hc := mem_ascii.1 (ha c (by simp))
      have hd := mem_ascii.1 (hb d (by simp))
      have v1 := digitVal_ascii (c - 48) (by omega)
      have v2 := digitVal_ascii (d - 48) (by omega)
      rw [show 48 + (c - 48) = c by omega] at v1
      rw [show 48 + (d - 48) = d by omega] at v2
      have : c = d := by omega
      subst this
      congr 1
      exact ih (fun x hx => ha x (by simp [hx])) (fun x hx => hb x (by simp [hx])) hl' (by omega)

theorem padNat_of_ascii {s : PyStr} (h : ∀ c ∈ s, ascii.mem c = true) (hn : 0 < s.length) :
    padNat s.length (digitsVal s) = s := by
  apply ascii_digits_unique (padNat_ascii _ _) h
  · exact padNat_length _ _ hn (digitsVal_lt s)
  · exact padNat_val _ _

/-! ### Fixed-point text -/

theorem splitC_append (sep : Nat) (a b : PyStr) (h : sep ∉ a) :
    splitC sep (a ++ sep :: b) = a :: splitC sep b := by
  induction a with
  | nil => simp [splitC]
  | cons c t ih =>
    simp only [List.mem_cons, not_or] at h
    rw [List.cons_append, splitC, if_neg (Ne.symm h.1), ih h.2]

/-- `float(f"{x:.Nf}")` of a non-negative number. -/
theorem floatOf_fmtF (N : Nat) (hN : 0 < N) (x : F64) (hx : x.sgn = false) :
    floatOf (fmtF N x) =
      some (F64.mk' (mkRat (rhe (x.val.num.natAbs * 10 ^ N) x.val.den) (10 ^ N)) false) := by
  unfold fmtF
  simp only [hx, Bool.false_eq_true, if_false, List.nil_append]
  generalize rhe (x.val.num.natAbs * 10 ^ N) x.val.den = k
  have hp : 0 < 10 ^ N := Nat.pow_pos (by omega)
  have ha := natStr_digits (k / 10 ^ N)
  have hb := padNat_digits N (k % 10 ^ N)
  have hl : (padNat N (k % 10 ^ N)).length = N := padNat_length N _ hN (Nat.mod_lt _ hp)
  have hd : decOf (natStr (k / 10 ^ N) ++ [46] ++ padNat N (k % 10 ^ N)) =
      some (mkRat k (10 ^ N)) := by
    unfold decOf
    rw [List.append_assoc, List.singleton_append, splitC_append 46 _ _ (ha.ne (by decide)),
      splitC_absent 46 _ (hb.ne (by decide))]
    simp only
    rw [if_pos ⟨natStr_ne _, padNat_ne _ _, ha.all, hb.all⟩, digitsVal_append, natStr_val,
      padNat_val, hl, Nat.mul_comm, Nat.div_add_mod]
  unfold floatOf
  split
  · next t ht =>
    exfalso
    cases hs : natStr (k / 10 ^ N) with
    | nil => exact natStr_ne _ hs
    | cons c u =>
      rw [hs] at ht ha
      simp only [List.cons_append, List.cons.injEq] at ht
      exact absurd (ha c (by simp)) (by rw [ht.1]; decide)
  · rw [hd]; rfl

end Verif
