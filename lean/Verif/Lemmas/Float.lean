import Verif.Py.Float

/-
Rounding to binary64: error bound, exactness, monotonicity.
-/

namespace Verif

theorem two_ne_zero : (2 : Rat) ≠ 0 := by decide
theorem two_pos : (0 : Rat) < 2 := by decide

theorem zpow_two_pos (e : Int) : (0 : Rat) < 2 ^ e := Rat.zpow_pos two_pos

theorem zpow_toNat {e : Int} (h : 0 ≤ e) : (2 : Rat) ^ e = (2 : Rat) ^ e.toNat := by
  rw [← Rat.zpow_natCast, Int.toNat_of_nonneg h]

theorem zpow_neg_mul (e : Int) : (2 : Rat) ^ e * 2 ^ (-e) = 1 := by
  rw [← Rat.zpow_add two_ne_zero, Int.add_right_neg, Rat.zpow_zero]

theorem mulPow2_eq (k : Nat) (e : Int) : mulPow2 k e = (k : Rat) * 2 ^ e := by
  unfold mulPow2
  split
  · next h => rw [Rat.natCast_mul, Rat.natCast_pow, zpow_toNat h]; rfl
  · next h =>
    rw [Rat.mkRat_eq_div, Rat.natCast_pow]
    have h1 : (0 : Int) ≤ -e := by omega
    have h2 := zpow_neg_mul e
    rw [zpow_toNat h1] at h2
    have h3 : (0 : Rat) < (2 : Rat) ^ (-e).toNat := Rat.pow_pos two_pos
    have : ((2 : Nat) : Rat) = 2 := rfl
    rw [this, Rat.intCast_natCast]
    grind

theorem scale2_eq (n d : Nat) (e : Int) :
    ((scale2 n d e).1 : Rat) * (d * 2 ^ e) = n * (scale2 n d e).2 := by
  unfold scale2
  have h2c : ((2 : Nat) : Rat) = 2 := rfl
  split
  · next h => simp only [Rat.natCast_mul, Rat.natCast_pow, zpow_toNat h, h2c]
  · next h =>
    have h1 : (0 : Int) ≤ -e := by omega
    have h2 := zpow_neg_mul e
    rw [zpow_toNat h1] at h2
    simp only [Rat.natCast_mul, Rat.natCast_pow, h2c]
    grind

theorem scale2_pos (n d : Nat) (hd : 0 < d) (e : Int) : 0 < (scale2 n d e).2 := by
  unfold scale2
  split
  · exact Nat.mul_pos hd (Nat.pow_pos (by omega))
  · exact hd

theorem natCast_pos {n : Nat} (h : 0 < n) : (0 : Rat) < n := by
  have := (Rat.natCast_lt_natCast (a := 0) (b := n)).2 h
  simpa using this

theorem scale2_cmp (n d : Nat) (hd : 0 < d) (e : Int) (c : Nat) :
    (scale2 n d e).1 < c * (scale2 n d e).2 ↔ (n : Rat) < c * (2 ^ e * d) := by
  have h1 := scale2_eq n d e
  have h2 := natCast_pos (scale2_pos n d hd e)
  have h3 := natCast_pos hd
  have h4 := zpow_two_pos e
  rw [← Rat.natCast_lt_natCast, Rat.natCast_mul]
  generalize ((scale2 n d e).1 : Rat) = p1 at *
  generalize ((scale2 n d e).2 : Rat) = p2 at *
  generalize (2 : Rat) ^ e = t at *
  have h5 : (0 : Rat) < d * t := Rat.mul_pos h3 h4
  constructor
  · intro h
    have h6 := Rat.mul_lt_mul_of_pos_right h h5
    rw [h1] at h6
    refine Rat.lt_of_mul_lt_mul_right (c := p2) ?_ (Rat.le_of_lt h2)
    grind
  · intro h
    have h6 := Rat.mul_lt_mul_of_pos_right h h2
    rw [← h1] at h6
    refine Rat.lt_of_mul_lt_mul_right (c := d * t) ?_ (Rat.le_of_lt h5)
    grind

theorem zpow_sub_one (e : Int) : (2 : Rat) ^ e = 2 * 2 ^ (e - 1) := by
  have := Rat.zpow_add two_ne_zero (e - 1) 1
  rw [show e - 1 + 1 = e by omega, Rat.zpow_one] at this
  grind

/-- `2^52 * 2^e ≤ n/d < 2^53 * 2^e` for the chosen exponent. -/
theorem expo_spec (n d : Nat) (hn : 0 < n) (hd : 0 < d) :
    ((2 ^ 52 : Nat) : Rat) * (2 ^ (expo n d) * d) ≤ n ∧
      (n : Rat) < ((2 ^ 53 : Nat) : Rat) * (2 ^ (expo n d) * d) := by
  have hn1 : 2 ^ Nat.log2 n ≤ n := Nat.log2_self_le (by omega)
  have hn2 : n < 2 ^ (Nat.log2 n + 1) := Nat.lt_log2_self
  have hd1 : 2 ^ Nat.log2 d ≤ d := Nat.log2_self_le (by omega)
  have hd2 : d < 2 ^ (Nat.log2 d + 1) := Nat.lt_log2_self
  generalize ha : Nat.log2 n = a at hn1 hn2
  generalize hb : Nat.log2 d = b at hd1 hd2
  have e0 : (2 : Rat) ^ ((a : Int) - b - 52) * (2 ^ 52 * 2 ^ b) = 2 ^ a := by
    have : (2 : Rat) ^ (((a : Int) - b - 52) + (52 : Nat) + (b : Nat)) = 2 ^ (a : Int) := by
      congr 1; omega
    rw [Rat.zpow_add two_ne_zero, Rat.zpow_add two_ne_zero] at this
    simp only [Rat.zpow_natCast] at this
    grind
  have hn1' : (2 : Rat) ^ a ≤ n := by
    have := (Rat.natCast_le_natCast).2 hn1
    rwa [Rat.natCast_pow] at this
  have hn2' : (n : Rat) < 2 ^ a * 2 := by
    have := (Rat.natCast_lt_natCast).2 hn2
    rwa [Rat.natCast_pow, Rat.pow_succ] at this
  have hd1' : (2 : Rat) ^ b ≤ d := by
    have := (Rat.natCast_le_natCast).2 hd1
    rwa [Rat.natCast_pow] at this
  have hd2' : (d : Rat) < 2 ^ b * 2 := by
    have := (Rat.natCast_lt_natCast).2 hd2
    rwa [Rat.natCast_pow, Rat.pow_succ] at this
  have ht := zpow_two_pos ((a : Int) - b - 52)
  unfold expo
  simp only [ha, hb]
  have c52 : ((2 ^ 52 : Nat) : Rat) = 2 ^ 52 := by rw [Rat.natCast_pow]; rfl
  have c53 : ((2 ^ 53 : Nat) : Rat) = 2 * 2 ^ 52 := by rw [Rat.natCast_pow]; decide +kernel
  split
  · next h =>
    have h := (scale2_cmp n d hd _ _).1 h
    rw [zpow_sub_one ((a : Int) - b - 52)] at h e0 ht
    rw [c52] at h ⊢
    rw [c53]
    generalize (2 : Rat) ^ ((a : Int) - b - 52 - 1) = t at *
    have ht' : 0 < t := by grind
    have h7 := Rat.mul_lt_mul_of_pos_left hd2' ht'
    constructor <;> grind
  · next h =>
    have h := Rat.not_lt.1 (fun hh => h ((scale2_cmp n d hd _ _).2 hh))
    rw [c53]
    refine ⟨h, ?_⟩
    generalize (2 : Rat) ^ ((a : Int) - b - 52) = t at *
    have h7 := Rat.mul_le_mul_of_nonneg_left hd1' (Rat.le_of_lt ht)
    grind

/-- The nearest integer is within one half. -/
theorem rhe_spec (a b : Nat) (hb : 0 < b) :
    2 * (rhe a b * b) ≤ 2 * a + b ∧ 2 * a ≤ 2 * (rhe a b * b) + b := by
  have h1 := Nat.div_add_mod a b
  have h2 := Nat.mod_lt a hb
  unfold rhe
  generalize a / b = q at *
  generalize a % b = r at *
  rw [Nat.mul_comm] at h1
  simp only
  split
  · omega
  · split
    · rw [Nat.add_mul]; omega
    · split
      · omega
      · rw [Nat.add_mul]; omega

/-- Error of rounding a positive fraction: at most half a unit in the last place. -/
theorem rndPos_error (n d : Nat) (hd : 0 < d) :
    (2 : Rat) * (rndPos n d * d) ≤ 2 * n + 2 ^ (expo n d) * d ∧
      (2 : Rat) * n ≤ 2 * (rndPos n d * d) + 2 ^ (expo n d) * d := by
  unfold rndPos
  simp only [mulPow2_eq]
  have hs := scale2_eq n d (expo n d)
  have hp := scale2_pos n d hd (expo n d)
  have h := rhe_spec (scale2 n d (expo n d)).1 (scale2 n d (expo n d)).2 hp
  have h1 := (Rat.natCast_le_natCast).2 h.1
  have h2 := (Rat.natCast_le_natCast).2 h.2
  simp only [Rat.natCast_mul, Rat.natCast_add] at h1 h2
  have hp' := natCast_pos hp
  have hd' := natCast_pos hd
  have ht := zpow_two_pos (expo n d)
  have c2 : ((2 : Nat) : Rat) = 2 := rfl
  rw [c2] at h1 h2
  generalize ((rhe (scale2 n d (expo n d)).1 (scale2 n d (expo n d)).2 : Nat) : Rat) = k at *
  generalize ((scale2 n d (expo n d)).1 : Rat) = p1 at *
  generalize ((scale2 n d (expo n d)).2 : Rat) = p2 at *
  generalize (2 : Rat) ^ (expo n d) = t at *
  have hdt : (0 : Rat) ≤ d * t := Rat.le_of_lt (Rat.mul_pos hd' ht)
  have h3 := Rat.mul_le_mul_of_nonneg_right h1 hdt
  have h4 := Rat.mul_le_mul_of_nonneg_right h2 hdt
  constructor
  · refine Rat.le_of_mul_le_mul_right (c := p2) ?_ hp'
    grind
  · refine Rat.le_of_mul_le_mul_right (c := p2) ?_ hp'
    grind

/-- Relative error of rounding a positive fraction: at most `2^-53`. -/
theorem rndPos_rel (n d : Nat) (hn : 0 < n) (hd : 0 < d) :
    (2 : Rat) ^ 53 * (rndPos n d * d) ≤ (2 ^ 53 + 1) * n ∧
      ((2 : Rat) ^ 53 - 1) * n ≤ 2 ^ 53 * (rndPos n d * d) := by
  obtain ⟨h1, h2⟩ := rndPos_error n d hd
  obtain ⟨h3, _⟩ := expo_spec n d hn hd
  have c52 : ((2 ^ 52 : Nat) : Rat) = 2 ^ 52 := by rw [Rat.natCast_pow]; rfl
  have c53 : (2 : Rat) ^ 53 = 2 * 2 ^ 52 := by decide +kernel
  rw [c52] at h3
  rw [c53]
  generalize (2 : Rat) ^ expo n d * d = u at *
  generalize rndPos n d * d = v at *
  have c : (2 : Rat) ^ 52 = 4503599627370496 := by decide +kernel
  rw [c] at h3 ⊢
  constructor <;> grind

theorem rat_mul_den (q : Rat) : q * q.den = q.num := by
  have h : q = (q.num : Rat) / q.den := by
    rw [← Rat.mkRat_eq_div, Rat.mkRat_self]
  have hd : (0 : Rat) < q.den := natCast_pos q.den_pos
  generalize hdd : (q.den : Rat) = d at *
  generalize hnn : (q.num : Rat) = n at *
  rw [h, Rat.div_mul_cancel]
  grind

theorem rat_cancel {a b c : Rat} (hc : 0 < c) (h : a * c = b * c) : a = b := by
  have h1 : (a - b) * c = 0 := by grind
  rcases Rat.mul_eq_zero.1 h1 with h2 | h2 <;> grind

theorem rnd_zero : rnd 0 = 0 := by rfl

theorem rnd_pos (q : Rat) (h : 0 < q) : rnd q = rndPos q.num.toNat q.den ∧ 0 < q.num.toNat := by
  have hn : 0 < q.num := by
    have h1 : 0 ≤ q.num := Rat.num_nonneg.2 (Rat.le_of_lt h)
    have h2 : q.num ≠ 0 := by
      intro h0
      rw [Rat.num_eq_zero] at h0
      grind
    omega
  unfold rnd
  split
  · next h0 => rw [h0] at hn; simp at hn
  · next n h0 => rw [h0]; simp
  · next n h0 => rw [h0] at hn; simp at hn

theorem rnd_neg (q : Rat) : rnd (-q) = - rnd q := by
  unfold rnd
  rw [Rat.neg_num, Rat.neg_den]
  cases h : q.num with
  | ofNat n =>
    cases n with
    | zero => simp
    | succ n => rfl
  | negSucc n =>
    show rndPos (n + 1) q.den = - - rndPos (n + 1) q.den
    rw [Rat.neg_neg]

/-- Relative error of rounding a non-negative number: at most `2^-53`. -/
theorem rnd_rel (q : Rat) (h : 0 ≤ q) :
    (2 : Rat) ^ 53 * rnd q ≤ (2 ^ 53 + 1) * q ∧ ((2 : Rat) ^ 53 - 1) * q ≤ 2 ^ 53 * rnd q := by
  by_cases h0 : q = 0
  · subst h0; rw [rnd_zero]; decide +kernel
  · have hpos : 0 < q := by grind
    obtain ⟨e, hn⟩ := rnd_pos q hpos
    obtain ⟨h1, h2⟩ := rndPos_rel q.num.toNat q.den hn q.den_pos
    rw [e]
    have hq := rat_mul_den q
    have hnum : ((q.num.toNat : Nat) : Rat) = q.num := by
      rw [← Rat.intCast_natCast, Int.toNat_of_nonneg (by omega)]
    rw [hnum, ← hq] at h1 h2
    have hd : (0 : Rat) < q.den := natCast_pos q.den_pos
    constructor
    · refine Rat.le_of_mul_le_mul_right (c := q.den) ?_ hd
      grind
    · refine Rat.le_of_mul_le_mul_right (c := q.den) ?_ hd
      grind

theorem zpow_le_one_imp {e : Int} (h : (2 : Rat) ^ e < 2) : e ≤ 0 := by
  apply Int.not_lt.1
  intro he
  rw [zpow_toNat (by omega)] at h
  obtain ⟨k, hk⟩ : ∃ k, e.toNat = k + 1 := ⟨e.toNat - 1, by omega⟩
  rw [hk, Rat.pow_succ] at h
  have : ∀ k : Nat, (1 : Rat) ≤ 2 ^ k := by
    intro k
    induction k with
    | zero => simp
    | succ k ih => rw [Rat.pow_succ]; grind
  have := this k
  grind

theorem rhe_exact (k b : Nat) (hb : 0 < b) : rhe (k * b) b = k := by
  unfold rhe
  simp [Nat.mul_div_cancel _ hb, hb]

/-- A fraction `n / 2^j` with `n < 2^53` is a double. -/
theorem rndPos_exact (n j : Nat) (hn : 0 < n) (hlt : n < 2 ^ 53) :
    rndPos n (2 ^ j) * (2 ^ j : Nat) = n := by
  have hd : 0 < 2 ^ j := Nat.pow_pos (by omega)
  obtain ⟨h1, _⟩ := expo_spec n (2 ^ j) hn hd
  have hlt' := (Rat.natCast_lt_natCast).2 hlt
  have hej : expo n (2 ^ j) + j ≤ 0 := by
    apply zpow_le_one_imp
    rw [Rat.zpow_add two_ne_zero, Rat.zpow_natCast]
    rw [Rat.natCast_pow 2 j] at h1
    have c2 : ((2 : Nat) : Rat) = 2 := rfl
    rw [c2] at h1
    have c52 : ((2 ^ 52 : Nat) : Rat) = 4503599627370496 := by decide +kernel
    have c53 : ((2 ^ 53 : Nat) : Rat) = 9007199254740992 := by decide +kernel
    rw [c52] at h1
    rw [c53] at hlt'
    generalize (2 : Rat) ^ expo n (2 ^ j) * 2 ^ j = u at *
    grind
  unfold rndPos
  simp only
  generalize expo n (2 ^ j) = e at *
  have hs : ∃ k, (scale2 n (2 ^ j) e).1 = k * (scale2 n (2 ^ j) e).2 := by
    unfold scale2
    split
    · have : e = 0 := by omega
      subst this
      have : j = 0 := by omega
      subst this
      exact ⟨n, by simp⟩
    · refine ⟨n * 2 ^ ((-e).toNat - j), ?_⟩
      simp only
      rw [Nat.mul_assoc, ← Nat.pow_add, show (-e).toNat - j + j = (-e).toNat by omega]
  obtain ⟨k, hk⟩ := hs
  have hp := scale2_pos n (2 ^ j) hd e
  have heq := scale2_eq n (2 ^ j) e
  rw [hk] at heq ⊢
  rw [rhe_exact _ _ hp, mulPow2_eq]
  have hp' := natCast_pos hp
  rw [Rat.natCast_mul] at heq
  generalize ((scale2 n (2 ^ j) e).2 : Rat) = p2 at *
  have : (k : Rat) * 2 ^ e * ((2 ^ j : Nat) : Rat) * p2 = n * p2 := by grind
  exact rat_cancel hp' this

/-- Numbers `num / 2^j` with a numerator below `2^53` are unchanged by rounding. -/
theorem rnd_exact (q : Rat) (j : Nat) (hd : q.den = 2 ^ j) (hn : q.num.natAbs < 2 ^ 53) :
    rnd q = q := by
  have key : ∀ q : Rat, 0 < q → q.den = 2 ^ j → q.num.natAbs < 2 ^ 53 → rnd q = q := by
    intro q hq hd hn
    obtain ⟨e, hpos⟩ := rnd_pos q hq
    have h := rndPos_exact q.num.toNat j hpos (by omega)
    rw [← hd, ← e] at h
    have hnum : ((q.num.toNat : Nat) : Rat) = q.num := by
      rw [← Rat.intCast_natCast, Int.toNat_of_nonneg (by omega)]
    rw [hnum, ← rat_mul_den q] at h
    have hdp : (0 : Rat) < q.den := natCast_pos q.den_pos
    exact rat_cancel hdp h
  rcases (by grind : q < 0 ∨ q = 0 ∨ 0 < q) with h | h | h
  · have := key (-q) (by grind) (by simpa using hd) (by simpa using hn)
    rw [rnd_neg] at this
    grind
  · rw [h, rnd_zero]
  · exact key q h hd hn

theorem rnd_natCast (n : Nat) (h : n < 2 ^ 53) : rnd n = n := by
  apply rnd_exact n 0
  · rfl
  · simpa using h

theorem F64.ofNat_val (n : Nat) (h : n < 2 ^ 53) : (F64.ofNat n).val = n := by
  simp [F64.ofNat, F64.mk', rnd_natCast n h]

theorem F64.mk'_false (q : Rat) : F64.mk' q false = ⟨rnd q, false⟩ := by
  simp [F64.mk']

theorem F64.ofNat_eq (n : Nat) (h : n < 2 ^ 53) : F64.ofNat n = ⟨n, false⟩ := by
  unfold F64.ofNat; rw [F64.mk'_false, rnd_natCast n h]

/-! ### Monotonicity -/

theorem rhe_mono (a b c d : Nat) (hb : 0 < b) (hd : 0 < d) (h : a * d ≤ c * b) :
    rhe a b ≤ rhe c d := by
  have tie : ∀ (a b q : Nat), 0 < b → 2 * a = (2 * q + 1) * b →
      rhe a b = if q % 2 = 0 then q else q + 1 := by
    intro a b q hb h
    obtain ⟨m, rfl⟩ : ∃ m, b = 2 * m := by
      refine ⟨a - q * b, ?_⟩
      rw [Nat.add_mul, Nat.mul_assoc] at h
      omega
    have ha : a = m + 2 * m * q := by
      rw [Nat.add_mul, Nat.one_mul] at h
      have : 2 * q * (2 * m) = 2 * (2 * m * q) := by grind
      omega
    have hm : m < 2 * m := by omega
    have e1 : a / (2 * m) = q := by
      rw [ha, Nat.add_mul_div_left _ _ hb, Nat.div_eq_of_lt hm, Nat.zero_add]
    have e2 : a % (2 * m) = m := by
      rw [ha, Nat.add_mul_mod_self_left, Nat.mod_eq_of_lt hm]
    unfold rhe
    simp [e1, e2]
  obtain ⟨h1, _⟩ := rhe_spec a b hb
  obtain ⟨_, h4⟩ := rhe_spec c d hd
  apply Nat.not_lt.1
  intro hlt
  generalize hk1 : rhe a b = k1 at *
  generalize hk2 : rhe c d = k2 at *
  -- k1 ≥ k2 + 1 forces two equal ties
  have hk : (k2 + 1) * b ≤ k1 * b := Nat.mul_le_mul_right _ (by omega)
  have g1 : (2 * k2 + 1) * b ≤ 2 * a := by
    have : 2 * ((k2 + 1) * b) = (2 * k2 + 1) * b + b := by grind
    omega
  have g2 : 2 * c ≤ (2 * k2 + 1) * d := by
    have : 2 * (k2 * d) + d = (2 * k2 + 1) * d := by grind
    omega
  have g3 : (2 * k2 + 1) * b * d ≤ 2 * a * d := Nat.mul_le_mul_right _ g1
  have g4 : 2 * c * b ≤ (2 * k2 + 1) * d * b := Nat.mul_le_mul_right _ g2
  have g5 : (2 * k2 + 1) * b * d = (2 * k2 + 1) * d * b := by grind
  have g6 : 2 * a * d = 2 * (a * d) := by grind
  have g7 : 2 * c * b = 2 * (c * b) := by grind
  have e1 : 2 * a = (2 * k2 + 1) * b := by
    have : 2 * a * d = (2 * k2 + 1) * b * d := by omega
    exact Nat.eq_of_mul_eq_mul_right hd this
  have e2 : 2 * c = (2 * k2 + 1) * d := by
    have : 2 * c * b = (2 * k2 + 1) * d * b := by omega
    exact Nat.eq_of_mul_eq_mul_right hb this
  have r1 := tie a b k2 hb e1
  have r2 := tie c d k2 hd e2
  omega

theorem zpow_two_le {e f : Int} (h : e ≤ f) : (2 : Rat) ^ e ≤ 2 ^ f := by
  obtain ⟨k, rfl⟩ : ∃ k : Nat, f = e + k := ⟨(f - e).toNat, by omega⟩
  rw [Rat.zpow_add two_ne_zero, Rat.zpow_natCast]
  have h1 : ∀ k : Nat, (1 : Rat) ≤ 2 ^ k := by
    intro k
    induction k with
    | zero => simp
    | succ k ih => rw [Rat.pow_succ]; grind
  have := Rat.mul_le_mul_of_nonneg_left (h1 k) (Rat.le_of_lt (zpow_two_pos e))
  grind

/-- The significand of the rounded number is between `2^52` and `2^53`. -/
theorem rhe_bounds (n d : Nat) (hn : 0 < n) (hd : 0 < d) :
    2 ^ 52 ≤ rhe (scale2 n d (expo n d)).1 (scale2 n d (expo n d)).2 ∧
      rhe (scale2 n d (expo n d)).1 (scale2 n d (expo n d)).2 ≤ 2 ^ 53 := by
  have hp := scale2_pos n d hd (expo n d)
  obtain ⟨h1, h2⟩ := expo_spec n d hn hd
  have a1 := fun h => Rat.not_lt.2 h1 ((scale2_cmp n d hd _ _).1 h)
  have a2 := (scale2_cmp n d hd _ _).2 h2
  generalize (scale2 n d (expo n d)).1 = p1 at *
  generalize (scale2 n d (expo n d)).2 = p2 at *
  constructor
  · have := rhe_mono (2 ^ 52 * p2) p2 p1 p2 hp hp (Nat.mul_le_mul_right _ (Nat.not_lt.1 a1))
    rwa [rhe_exact _ _ hp] at this
  · have := rhe_mono p1 p2 (2 ^ 53 * p2) p2 hp hp (Nat.mul_le_mul_right _ (Nat.le_of_lt a2))
    rwa [rhe_exact _ _ hp] at this

theorem rndPos_mono (n d n' d' : Nat) (hn : 0 < n) (hd : 0 < d) (hn' : 0 < n') (hd' : 0 < d')
    (h : n * d' ≤ n' * d) : rndPos n d ≤ rndPos n' d' := by
  obtain ⟨h1, h2⟩ := expo_spec n d hn hd
  obtain ⟨h3, h4⟩ := expo_spec n' d' hn' hd'
  obtain ⟨b1, b2⟩ := rhe_bounds n d hn hd
  obtain ⟨b3, b4⟩ := rhe_bounds n' d' hn' hd'
  have hdp := natCast_pos hd
  have hdp' := natCast_pos hd'
  have hr : (n : Rat) * d' ≤ n' * d := by
    have := (Rat.natCast_le_natCast).2 h
    simpa [Rat.natCast_mul] using this
  have hle : expo n d ≤ expo n' d' := by
    apply Int.not_lt.1
    intro hlt
    have hz := zpow_two_le (show expo n' d' + 1 ≤ expo n d by omega)
    rw [Rat.zpow_add two_ne_zero, Rat.zpow_one] at hz
    have c52 : ((2 ^ 52 : Nat) : Rat) = 4503599627370496 := by decide +kernel
    have c53 : ((2 ^ 53 : Nat) : Rat) = 9007199254740992 := by decide +kernel
    rw [c52] at h1
    rw [c53] at h4
    generalize (2 : Rat) ^ expo n d = t at *
    generalize (2 : Rat) ^ expo n' d' = t' at *
    have g1 := Rat.mul_le_mul_of_nonneg_right h1 (Rat.le_of_lt hdp')
    have g2 := Rat.mul_lt_mul_of_pos_right h4 hdp
    have hdd := Rat.mul_pos hdp hdp'
    have g3 := Rat.mul_le_mul_of_nonneg_right hz (Rat.le_of_lt hdd)
    grind
  unfold rndPos
  simp only [mulPow2_eq]
  by_cases heq : expo n d = expo n' d'
  · have s1 := scale2_eq n d (expo n d)
    have s2 := scale2_eq n' d' (expo n' d')
    have p1 := scale2_pos n d hd (expo n d)
    have p2 := scale2_pos n' d' hd' (expo n' d')
    have hm : rhe (scale2 n d (expo n d)).1 (scale2 n d (expo n d)).2 ≤
        rhe (scale2 n' d' (expo n' d')).1 (scale2 n' d' (expo n' d')).2 := by
      apply rhe_mono _ _ _ _ p1 p2
      rw [← Rat.natCast_le_natCast, Rat.natCast_mul, Rat.natCast_mul]
      rw [← heq] at s2 ⊢
      rw [← heq] at p2
      have p1' := natCast_pos p1
      have p2' := natCast_pos p2
      have ht := zpow_two_pos (expo n d)
      generalize ((scale2 n d (expo n d)).1 : Rat) = x1 at *
      generalize ((scale2 n d (expo n d)).2 : Rat) = y1 at *
      generalize ((scale2 n' d' (expo n d)).1 : Rat) = x2 at *
      generalize ((scale2 n' d' (expo n d)).2 : Rat) = y2 at *
      generalize (2 : Rat) ^ expo n d = t at *
      have hc : (0 : Rat) < d * d' * t := Rat.mul_pos (Rat.mul_pos hdp hdp') ht
      refine Rat.le_of_mul_le_mul_right (c := d * d' * t) ?_ hc
      have e1 : x1 * y2 * (d * d' * t) = n * d' * (y1 * y2) := by grind
      have e2 : x2 * y1 * (d * d' * t) = n' * d * (y1 * y2) := by grind
      rw [e1, e2]
      exact Rat.mul_le_mul_of_nonneg_right hr (Rat.le_of_lt (Rat.mul_pos p1' p2'))
    rw [← heq] at hm ⊢
    exact Rat.mul_le_mul_of_nonneg_right ((Rat.natCast_le_natCast).2 hm)
      (Rat.le_of_lt (zpow_two_pos _))
  · have hlt : expo n d + 1 ≤ expo n' d' := by omega
    have hz := zpow_two_le hlt
    rw [Rat.zpow_add two_ne_zero, Rat.zpow_one] at hz
    have c52 : ((2 ^ 52 : Nat) : Rat) = 4503599627370496 := by decide +kernel
    have c53 : ((2 ^ 53 : Nat) : Rat) = 9007199254740992 := by decide +kernel
    have b2 := (Rat.natCast_le_natCast).2 b2
    have b3 := (Rat.natCast_le_natCast).2 b3
    rw [c53] at b2
    rw [c52] at b3
    have t1 := zpow_two_pos (expo n d)
    have t2 := zpow_two_pos (expo n' d')
    generalize ((rhe (scale2 n d (expo n d)).1 (scale2 n d (expo n d)).2 : Nat) : Rat) = k1 at *
    generalize ((rhe (scale2 n' d' (expo n' d')).1 (scale2 n' d' (expo n' d')).2 : Nat) : Rat) = k2 at *
    generalize (2 : Rat) ^ expo n d = t at *
    generalize (2 : Rat) ^ expo n' d' = t' at *
    have g1 := Rat.mul_le_mul_of_nonneg_right b2 (Rat.le_of_lt t1)
    have g2 := Rat.mul_le_mul_of_nonneg_right b3 (Rat.le_of_lt t2)
    grind

theorem rnd_nonneg (q : Rat) (h : 0 ≤ q) : 0 ≤ rnd q := by
  have := (rnd_rel q h).2
  have c : (2 : Rat) ^ 53 = 9007199254740992 := by decide +kernel
  rw [c] at this
  grind

/-- Rounding is monotone. -/
theorem rnd_mono {p q : Rat} (h : p ≤ q) : rnd p ≤ rnd q := by
  have key : ∀ p q : Rat, 0 < p → p ≤ q → rnd p ≤ rnd q := by
    intro p q hp h
    have hq : 0 < q := by grind
    obtain ⟨e1, n1⟩ := rnd_pos p hp
    obtain ⟨e2, n2⟩ := rnd_pos q hq
    rw [e1, e2]
    apply rndPos_mono _ _ _ _ n1 p.den_pos n2 q.den_pos
    rw [← Rat.natCast_le_natCast, Rat.natCast_mul, Rat.natCast_mul]
    have hn1 : ((p.num.toNat : Nat) : Rat) = p.num := by
      rw [← Rat.intCast_natCast, Int.toNat_of_nonneg (by omega)]
    have hn2 : ((q.num.toNat : Nat) : Rat) = q.num := by
      rw [← Rat.intCast_natCast, Int.toNat_of_nonneg (by omega)]
    rw [hn1, hn2, ← rat_mul_den p, ← rat_mul_den q]
    have d1 : (0 : Rat) < p.den := natCast_pos p.den_pos
    have d2 : (0 : Rat) < q.den := natCast_pos q.den_pos
    have := Rat.mul_le_mul_of_nonneg_right h (Rat.le_of_lt (Rat.mul_pos d1 d2))
    grind
  rcases (by grind : p < 0 ∨ p = 0 ∨ 0 < p) with hp | hp | hp
  · by_cases hq : q < 0
    · have := key (-q) (-p) (by grind) (by grind)
      rw [rnd_neg, rnd_neg] at this
      grind
    · have h1 := rnd_nonneg q (by grind)
      have h2 := rnd_nonneg (-p) (by grind)
      rw [rnd_neg] at h2
      grind
  · subst hp; rw [rnd_zero]; exact rnd_nonneg q h
  · exact key p q hp h

end Verif
