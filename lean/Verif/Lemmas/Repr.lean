import Verif.Lemmas.Float
import Verif.Lemmas.Digits
import Verif.Py.Repr

/-
Decimals that are read as a given double.
-/

namespace Verif

/-! ### Rounding to the nearest double -/

theorem rnd_form (q : Rat) (h : 0 < q) : ∃ (k : Nat) (e : Int), rnd q = k * 2 ^ e ∧
    2 ^ 52 ≤ k ∧ k ≤ 2 ^ 53 ∧ 4503599627370496 * (2 : Rat) ^ e ≤ q ∧ q < 9007199254740992 * (2 : Rat) ^ e ∧
    2 * (k * 2 ^ e) ≤ 2 * q + (2 : Rat) ^ e ∧ 2 * q ≤ 2 * (k * 2 ^ e) + (2 : Rat) ^ e := by
  obtain ⟨e, hn⟩ := rnd_pos q h
  have hd := q.den_pos
  obtain ⟨b1, b2⟩ := rhe_bounds q.num.toNat q.den hn hd
  obtain ⟨s1, s2⟩ := expo_spec q.num.toNat q.den hn hd
  obtain ⟨r1, r2⟩ := rndPos_error q.num.toNat q.den hd
  have hf : rndPos q.num.toNat q.den = (rhe (scale2 q.num.toNat q.den (expo q.num.toNat q.den)).1
      (scale2 q.num.toNat q.den (expo q.num.toNat q.den)).2 : Nat) * 2 ^ (expo q.num.toNat q.den) := by
    unfold rndPos
    exact mulPow2_eq _ _
  refine ⟨_, _, e.trans hf, b1, b2, ?_⟩
  rw [← hf]
  have hq := rat_mul_den q
  have hnum : ((q.num.toNat : Nat) : Rat) = q.num := by
    rw [← Rat.intCast_natCast, Int.toNat_of_nonneg (by omega)]
  rw [hnum, ← hq] at s1 s2 r1 r2
  have hd' : (0 : Rat) < q.den := natCast_pos hd
  have c52 : ((2 ^ 52 : Nat) : Rat) = 4503599627370496 := by decide +kernel
  have c53 : ((2 ^ 53 : Nat) : Rat) = 9007199254740992 := by decide +kernel
  rw [c52] at s1
  rw [c53] at s2
  refine ⟨?_, ?_, ?_, ?_⟩
  · exact Rat.le_of_mul_le_mul_right (c := q.den) (by grind) hd'
  · exact Rat.lt_of_mul_lt_mul_right (c := q.den) (by grind) (Rat.le_of_lt hd')
  · exact Rat.le_of_mul_le_mul_right (c := q.den) (by grind) hd'
  · exact Rat.le_of_mul_le_mul_right (c := q.den) (by grind) hd'

theorem two_zpow_lt {e f : Int} (h : e < f) : 2 * (2 : Rat) ^ e ≤ 2 ^ f := by
  have := zpow_two_le (e := e + 1) (f := f) (by omega)
  have e1 := zpow_sub_one (e + 1)
  rw [show e + 1 - 1 = e by omega] at e1
  grind

/-- A number closer to a double than its fraction `2^-54` is rounded to it. -/
theorem rnd_close {k : Nat} {e : Int} (h1 : 2 ^ 52 ≤ k) (h2 : k < 2 ^ 53) {q : Rat}
    (h3 : 18014398509481984 * (q - k * 2 ^ e) < (k : Rat) * 2 ^ e)
    (h4 : 18014398509481984 * (k * 2 ^ e - q) < (k : Rat) * 2 ^ e) : rnd q = k * 2 ^ e := by
  have c1 : (4503599627370496 : Rat) ≤ k := by
    have := Rat.natCast_le_natCast.2 h1
    have c52 : ((2 ^ 52 : Nat) : Rat) = 4503599627370496 := by decide +kernel
    rwa [c52] at this
  have c2 : (k : Rat) + 1 ≤ 9007199254740992 := by
    have := Rat.natCast_le_natCast.2 (show k + 1 ≤ 2 ^ 53 by omega)
    have c53 : ((2 ^ 53 : Nat) : Rat) = 9007199254740992 := by decide +kernel
    rwa [c53, Rat.natCast_add] at this
  have ht := zpow_two_pos e
  have d1 := Rat.mul_le_mul_of_nonneg_right c1 (Rat.le_of_lt ht)
  have d2 := Rat.mul_le_mul_of_nonneg_right c2 (Rat.le_of_lt ht)
  have hq : 0 < q := by grind
  obtain ⟨k', e', f1, f2, f3, f4, f5, f6, f7⟩ := rnd_form q hq
  rw [f1]
  rcases Int.lt_trichotomy e' e with he | he | he
  · have he' : e' = e - 1 := by
      refine Int.le_antisymm (by omega) (Int.not_lt.1 fun hlt => ?_)
      have g1 := two_zpow_lt hlt
      have g2 := zpow_sub_one e
      grind
    subst he'
    have g2 := zpow_sub_one e
    have hk : k = 2 ^ 52 := by
      refine Nat.le_antisymm (Nat.not_lt.1 fun hlt => ?_) h1
      have c3 : (4503599627370497 : Rat) ≤ k := by
        have := Rat.natCast_le_natCast.2 (show 2 ^ 52 + 1 ≤ k by omega)
        have c52 : ((2 ^ 52 + 1 : Nat) : Rat) = 4503599627370497 := by decide +kernel
        rwa [c52] at this
      have d3 := Rat.mul_le_mul_of_nonneg_right c3 (Rat.le_of_lt ht)
      grind
    have hk' : k' = 2 ^ 53 := by
      refine Nat.le_antisymm f3 (Nat.not_lt.1 fun hlt => ?_)
      have c3 : (k' : Rat) ≤ 9007199254740991 := by
        have := Rat.natCast_le_natCast.2 (show k' ≤ 2 ^ 53 - 1 by omega)
        have c52 : ((2 ^ 53 - 1 : Nat) : Rat) = 9007199254740991 := by decide +kernel
        rwa [c52] at this
      have d3 := Rat.mul_le_mul_of_nonneg_right c3 (Rat.le_of_lt (zpow_two_pos (e - 1)))
      have d4 : (k : Rat) = 4503599627370496 := by rw [hk]; decide +kernel
      rw [d4] at h3 h4
      grind
    have d4 : (k : Rat) = 4503599627370496 := by rw [hk]; decide +kernel
    have d5 : (k' : Rat) = 9007199254740992 := by rw [hk']; decide +kernel
    rw [d4, d5, g2]
    grind
  · subst he
    have hk : k' = k := by
      refine Nat.le_antisymm (Nat.not_lt.1 fun hlt => ?_) (Nat.not_lt.1 fun hlt => ?_)
      · have := Rat.natCast_le_natCast.2 (show k + 1 ≤ k' by omega)
        rw [Rat.natCast_add] at this
        have d3 := Rat.mul_le_mul_of_nonneg_right this (Rat.le_of_lt ht)
        have c1 : ((1 : Nat) : Rat) = 1 := rfl
        rw [c1] at d3
        grind
      · have := Rat.natCast_le_natCast.2 (show k' + 1 ≤ k by omega)
        rw [Rat.natCast_add] at this
        have d3 := Rat.mul_le_mul_of_nonneg_right this (Rat.le_of_lt ht)
        have c1 : ((1 : Nat) : Rat) = 1 := rfl
        rw [c1] at d3
        grind
    rw [hk]
  · have g1 := two_zpow_lt he
    grind

/-- The numbers that rounding gives. -/
theorem rnd_idem (q : Rat) : rnd (rnd q) = rnd q := by
  have key : ∀ q : Rat, 0 < q → rnd (rnd q) = rnd q := by
    intro q hq
    obtain ⟨k, e, f1, f2, f3, -⟩ := rnd_form q hq
    have close : ∀ {k : Nat} {e : Int}, 2 ^ 52 ≤ k → k < 2 ^ 53 → rnd ((k : Rat) * 2 ^ e) = k * 2 ^ e := by
      intro k e h1 h2
      have hk : (0 : Rat) < k := natCast_pos (by omega)
      have := Rat.mul_pos hk (zpow_two_pos e)
      exact rnd_close h1 h2 (by grind) (by grind)
    rw [f1]
    rcases Nat.lt_or_ge k (2 ^ 53) with h | h
    · exact close f2 h
    · have hk : k = 2 ^ 53 := by omega
      have d5 : (k : Rat) * 2 ^ e = ((2 ^ 52 : Nat) : Rat) * 2 ^ (e + 1) := by
        have d5 : (k : Rat) = 9007199254740992 := by rw [hk]; decide +kernel
        have d6 : ((2 ^ 52 : Nat) : Rat) = 4503599627370496 := by decide +kernel
        have e1 := zpow_sub_one (e + 1)
        rw [show e + 1 - 1 = e by omega] at e1
        rw [d5, d6, e1]
        grind
      rw [d5]
      exact close (by omega) (by omega)
  by_cases h0 : q = 0
  · subst h0; rfl
  · rcases Rat.le_total (a := 0) (b := q) with h | h
    · exact key q (by grind)
    · have := key (-q) (by grind)
      rw [rnd_neg, rnd_neg] at this
      grind

/-- A number closer to the double `x` than `x / 2^54`. -/
theorem rnd_near {x q : Rat} (hx : 0 < x) (hr : rnd x = x) (h3 : 18014398509481984 * (q - x) < x)
    (h4 : 18014398509481984 * (x - q) < x) : rnd q = x := by
  obtain ⟨k, e, f1, f2, f3, f4, f5, -⟩ := rnd_form x hx
  rw [hr] at f1
  have hk : k < 2 ^ 53 := by
    refine Nat.lt_of_le_of_ne f3 fun hk => ?_
    have d5 : (k : Rat) = 9007199254740992 := by rw [hk]; decide +kernel
    rw [d5] at f1
    grind
  rw [f1] at h3 h4 ⊢
  exact rnd_close f2 hk h3 h4

/-! ### Powers of ten -/

theorem ten_ne_zero : (10 : Rat) ≠ 0 := by decide
theorem zpow_ten_pos (e : Int) : (0 : Rat) < 10 ^ e := Rat.zpow_pos (by decide)

theorem mulPow10_eq (k : Nat) (e : Int) : mulPow10 k e = (k : Rat) * 10 ^ e := by
  unfold mulPow10
  split
  · next h =>
    obtain ⟨n, rfl⟩ : ∃ n : Nat, e = n := ⟨e.toNat, by omega⟩
    rw [Rat.natCast_mul, Rat.natCast_pow, Rat.zpow_natCast, Int.toNat_natCast]
    rfl
  · next h =>
    obtain ⟨n, rfl⟩ : ∃ n : Nat, e = -n := ⟨(-e).toNat, by omega⟩
    rw [Rat.mkRat_eq_div, Rat.intCast_natCast, Int.neg_neg, Int.toNat_natCast, Rat.zpow_neg, Rat.zpow_natCast,
      Rat.natCast_pow, Rat.div_def]
    rfl

theorem scale10_eq (n d : Nat) (p : Int) :
    ((scale10 n d p).1 : Rat) * d * 10 ^ p = n * (scale10 n d p).2 := by
  unfold scale10
  split
  · next h =>
    obtain ⟨k, rfl⟩ : ∃ k : Nat, p = k := ⟨p.toNat, by omega⟩
    simp only [Int.toNat_natCast, Rat.natCast_mul, Rat.natCast_pow, Rat.zpow_natCast]
    have : ((10 : Nat) : Rat) = 10 := rfl
    rw [this]
    grind
  · next h =>
    obtain ⟨k, rfl⟩ : ∃ k : Nat, p = -k := ⟨(-p).toNat, by omega⟩
    simp only [Int.neg_neg, Int.toNat_natCast, Rat.natCast_mul, Rat.natCast_pow, Rat.zpow_neg, Rat.zpow_natCast]
    have : ((10 : Nat) : Rat) = 10 := rfl
    rw [this]
    have h10 : (10 : Rat) ^ k ≠ 0 := by
      have := zpow_ten_pos k
      rw [Rat.zpow_natCast] at this
      grind
    have := Rat.mul_inv_cancel _ h10
    grind

theorem scale10_pos (n d : Nat) (hd : 0 < d) (p : Int) : 0 < (scale10 n d p).2 := by
  unfold scale10
  split
  · exact Nat.mul_pos hd (Nat.pow_pos (by omega))
  · exact hd

/-! ### The shortest decimal -/

/-- One of the two neighbours is read as the number when the exponent is small enough. -/
theorem nearest_reads {x : Rat} (hx : 0 < x) (hr : rnd x = x) {p : Int} (hp : (10 : Rat) ^ 16 * 10 ^ p ≤ x) {s : Nat × Nat}
    (hs : s = scale10 x.num.toNat x.den p) : rnd (mulPow10 (rhe s.1 s.2) p) = x := by
  rw [mulPow10_eq]
  have hd := x.den_pos
  have hd' : (0 : Rat) < x.den := natCast_pos hd
  have h0 := scale10_pos x.num.toNat x.den hd p
  have h1 := scale10_eq x.num.toNat x.den p
  rw [← hs] at h0 h1
  have hnum : ((x.num.toNat : Nat) : Rat) = x.num := by
    have := (rnd_pos x hx).2
    rw [← Rat.intCast_natCast, Int.toNat_of_nonneg (by omega)]
  rw [hnum, ← rat_mul_den] at h1
  have h2 : (s.1 : Rat) * 10 ^ p = x * s.2 := rat_cancel hd' (by grind)
  obtain ⟨a1, a2⟩ := rhe_spec s.1 s.2 h0
  have b1 := Rat.natCast_le_natCast.2 a1
  have b2 := Rat.natCast_le_natCast.2 a2
  simp only [Rat.natCast_mul, Rat.natCast_add] at b1 b2
  have c2 : ((2 : Nat) : Rat) = 2 := rfl
  rw [c2] at b1 b2
  have h0' := natCast_pos h0
  have ht := zpow_ten_pos p
  have d1 := Rat.mul_le_mul_of_nonneg_right b1 (Rat.le_of_lt ht)
  have d2 := Rat.mul_le_mul_of_nonneg_right b2 (Rat.le_of_lt ht)
  generalize ((rhe s.1 s.2 : Nat) : Rat) = k at *
  generalize (10 : Rat) ^ p = t at *
  have c : (10 : Rat) ^ 16 = 10000000000000000 := by decide +kernel
  rw [c] at hp
  have e1 : 2 * (k * t - x) ≤ t :=
    Rat.le_of_mul_le_mul_right (c := s.2) (by grind) h0'
  have e2 : 2 * (x - k * t) ≤ t :=
    Rat.le_of_mul_le_mul_right (c := s.2) (by grind) h0'
  exact rnd_near hx hr (by grind) (by grind)

theorem rhe_neighbour (a b : Nat) : rhe a b = a / b ∨ rhe a b = a / b + 1 := by
  unfold rhe
  simp only
  split
  · exact .inl rfl
  · split
    · exact .inr rfl
    · split
      · exact .inl rfl
      · exact .inr rfl

theorem shortestGo_reads {x : Rat} (hx : 0 < x) (hr : rnd x = x) (f : Nat) (p : Int)
    (hp : (10 : Rat) ^ 16 * 10 ^ (p - f + 1) ≤ x) (hf : 0 < f) :
    rnd (mulPow10 (shortestGo x.num.toNat x.den x f p).1 (shortestGo x.num.toNat x.den x f p).2) = x := by
  induction f generalizing p with
  | zero => omega
  | succ f ih =>
    unfold shortestGo
    simp only
    split
    · next h =>
      simp only [Bool.and_eq_true, decide_eq_true_eq] at h
      rcases rhe_neighbour (scale10 x.num.toNat x.den p).1 (scale10 x.num.toNat x.den p).2 with e | e
      · rw [e]; exact h.1
      · rw [e]; exact h.2
    · split
      · next h => simpa using h
      · split
        · next h => simpa using h
        · next h1 h2 h3 =>
          simp only [decide_eq_true_eq] at h2 h3
          rcases Nat.eq_zero_or_pos f with rfl | hf
          · exfalso
            have := nearest_reads hx hr (p := p) (by
              rw [show p - ((0 + 1 : Nat) : Int) + 1 = p by omega] at hp
              exact hp) rfl
            rcases rhe_neighbour (scale10 x.num.toNat x.den p).1 (scale10 x.num.toNat x.den p).2 with e | e
            · rw [e] at this; exact h2 this
            · rw [e] at this; exact h3 this
          · refine ih (p - 1) ?_ hf
            rw [show p - 1 - (f : Int) + 1 = p - ((f + 1 : Nat) : Int) + 1 by omega]
            exact hp

theorem natStr_bound (n : Nat) : n < 10 ^ (natStr n).length := by
  have := digitsVal_lt (natStr n)
  rwa [natStr_val] at this

/-- The last exponent tried is small enough. -/
theorem shortest_start {x : Rat} (hx : 0 < x) :
    (10 : Rat) ^ 16 * 10 ^ (((natStr (x.num.toNat / x.den)).length : Int) -
      ((natStr (x.num.toNat / x.den)).length + (natStr x.den).length + 20 : Nat) + 1) ≤ x := by
  have hd' : (0 : Rat) < x.den := natCast_pos x.den_pos
  have h1 := rat_mul_den x
  have hn : (1 : Rat) ≤ x.num := by
    have := (rnd_pos x hx).2
    have := Rat.intCast_le_intCast.2 (show (1 : Int) ≤ x.num by omega)
    exact this
  have h2 := Rat.natCast_lt_natCast.2 (natStr_bound x.den)
  rw [Rat.natCast_pow] at h2
  generalize (natStr x.den).length = m at *
  generalize (natStr (x.num.toNat / x.den)).length = w at *
  rw [show (w : Int) - ((w + m + 20 : Nat) : Int) + 1 = -(m : Int) + (-19) by omega, Rat.zpow_add ten_ne_zero,
    Rat.zpow_neg, Rat.zpow_natCast]
  have c : (10 : Rat) ^ 16 * 10 ^ (-19 : Int) = 1 / 1000 := by decide +kernel
  have c10 : ((10 : Nat) : Rat) = 10 := rfl
  rw [c10] at h2
  have h10 : 0 < (10 : Rat) ^ m := by
    have := zpow_ten_pos m
    rwa [Rat.zpow_natCast] at this
  have hi := Rat.mul_inv_cancel _ (show (10 : Rat) ^ m ≠ 0 by grind)
  generalize (10 : Rat) ^ (-19 : Int) = u at *
  generalize ((10 : Rat) ^ m)⁻¹ = v at *
  generalize (10 : Rat) ^ m = t at *
  have hv : 0 < v := by
    rcases Rat.le_total (a := v) (b := 0) with h | h
    · have := Rat.mul_le_mul_of_nonneg_left h (Rat.le_of_lt h10)
      grind
    · rcases Rat.le_iff_lt_or_eq.1 h with h | h
      · exact h
      · rw [← h] at hi; grind
  have hle : v ≤ x := by
    refine Rat.le_of_mul_le_mul_right (c := t) ?_ h10
    have := Rat.mul_le_mul_of_nonneg_left (Rat.le_of_lt h2) (Rat.le_of_lt hx)
    grind
  have : (10 : Rat) ^ 16 * (v * u) = 1 / 1000 * v := by rw [← c]; grind
  rw [this]
  grind

/-- The shortest decimal is read as the number. -/
theorem shortest_reads {x : Rat} (hx : 0 < x) (hr : rnd x = x) :
    rnd (mulPow10 (shortest x).1 (shortest x).2) = x := by
  unfold shortest
  exact shortestGo_reads hx hr _ _ (shortest_start hx) (by omega)

end Verif
