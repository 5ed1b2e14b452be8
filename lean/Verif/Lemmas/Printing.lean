import Verif.Spec.Printing
import Verif.Lemmas.Binary64
import Verif.Lemmas.Ordinary
import Verif.Lemmas.Json
import Verif.Lemmas.ReprRead

/-
Printing of numbers.
-/

namespace Verif
open Spec

/-! ### Nearest whole numbers -/

theorem distance_cases (a b : Rat) : (a ≤ b ∧ Spec.distance a b = b - a) ∨ (b ≤ a ∧ Spec.distance a b = a - b) := by
  unfold Spec.distance
  split
  · exact .inl ⟨by assumption, rfl⟩
  · exact .inr ⟨by grind, rfl⟩

theorem rhe_tie (a b : Nat) (hb : 0 < b) (h : 2 * (rhe a b * b) = 2 * a + b ∨ 2 * a = 2 * (rhe a b * b) + b) :
    rhe a b % 2 = 0 := by
  have h1 := Nat.div_add_mod a b
  have h2 := Nat.mod_lt a hb
  revert h
  unfold rhe
  generalize a / b = q at *
  generalize a % b = r at *
  subst h1
  simp only
  have e : b * q = q * b := Nat.mul_comm _ _
  split
  · intro h
    rw [e] at h
    generalize q * b = z at *
    omega
  · split
    · intro h
      have e2 : (q + 1) * b = q * b + b := Nat.succ_mul _ _
      rw [e, e2] at h
      generalize q * b = z at *
      omega
    · split
      · intro _; assumption
      · intro _; omega

theorem rhe_nearest {q : Rat} {a b : Nat} (hb : 0 < b) (hq : q * b = a) : NearestWhole q (rhe a b) := by
  obtain ⟨h1, h2⟩ := rhe_spec a b hb
  have hb' : (0 : Rat) < b := natCast_pos hb
  have b1 := Rat.natCast_le_natCast.2 h1
  have b2 := Rat.natCast_le_natCast.2 h2
  have c2 : ((2 : Nat) : Rat) = 2 := rfl
  simp only [Rat.natCast_mul, Rat.natCast_add] at b1 b2
  rw [c2, ← hq] at b1 b2
  refine ⟨⟨?_, ?_⟩, fun h => ?_⟩
  · exact Rat.le_of_mul_le_mul_right (c := b) (by grind) hb'
  · exact Rat.le_of_mul_le_mul_right (c := b) (by grind) hb'
  · refine rhe_tie a b hb ?_
    rcases distance_cases (rhe a b : Rat) q with ⟨-, e⟩ | ⟨-, e⟩
    · right
      rw [← Rat.natCast_inj]
      simp only [Rat.natCast_mul, Rat.natCast_add]
      rw [c2, ← hq]
      rw [e] at h
      have : q = rhe a b + 1 / 2 := by grind
      rw [this]
      grind
    · left
      rw [← Rat.natCast_inj]
      simp only [Rat.natCast_mul, Rat.natCast_add]
      rw [c2, ← hq]
      rw [e] at h
      have : q = rhe a b - 1 / 2 := by grind
      rw [this]
      grind

/-- A whole number other than the nearest is at least one half away. -/
theorem Spec.NearestWhole.best {q : Rat} {k : Nat} (h : NearestWhole q k) (j : Nat) :
    Spec.distance k q ≤ Spec.distance j q ∧ (Spec.distance k q = Spec.distance j q → j ≠ k → k % 2 = 0) := by
  by_cases hj : j = k
  · subst hj
    exact ⟨Rat.le_refl, fun _ h => absurd rfl h⟩
  · have hn := h.near
    have far : (1 : Rat) ≤ j - k ∨ (1 : Rat) ≤ k - j := by
      rcases Nat.lt_or_gt_of_ne hj with hl | hl
      · right
        have := Rat.natCast_le_natCast.2 (show j + 1 ≤ k by omega)
        rw [Rat.natCast_add] at this
        have c1 : ((1 : Nat) : Rat) = 1 := rfl
        grind
      · left
        have := Rat.natCast_le_natCast.2 (show k + 1 ≤ j by omega)
        rw [Rat.natCast_add] at this
        have c1 : ((1 : Nat) : Rat) = 1 := rfl
        grind
    obtain ⟨n1, n2⟩ := hn
    have d1 := distance_cases (k : Rat) q
    have d2 := distance_cases (j : Rat) q
    have t := h.tie
    have : Spec.distance k q ≤ 1 / 2 := by grind
    have : 1 / 2 ≤ Spec.distance j q := by grind
    refine ⟨by grind, fun e _ => t (by grind)⟩

/-! ### Fixed number of decimals -/

theorem natStr_lead (n : Nat) : (natStr n).length = 1 ∨ (natStr n).head? ≠ some 48 := by
  rcases Nat.eq_zero_or_pos n with rfl | h
  · left; rfl
  · exact .inr (natStr_head h)

theorem fmtF_fixed (n : Nat) (hn : 0 < n) (x : F64) : FixedText n x (fmtF n x) := by
  unfold fmtF
  simp only
  generalize hk : rhe (x.val.num.natAbs * 10 ^ n) x.val.den = k
  have d1 := ascii_range (natStr_ascii (k / 10 ^ n))
  have d2 := ascii_range (padNat_ascii n (k % 10 ^ n))
  have hl := padNat_length n (k % 10 ^ n) hn (Nat.mod_lt _ (Nat.pow_pos (by omega)))
  refine ⟨natStr (k / 10 ^ n), padNat n (k % 10 ^ n), _, ⟨rfl, ⟨natStr_ne _, d1⟩, natStr_lead _, padNat_ne _ _, d2⟩, hl, ?_, ?_, ?_⟩
  · intro h
    rw [if_pos ((sgn_negative x).2 h)]
    simp
  · intro h
    rw [if_neg (by rw [sgn_eq_false.2 h]; simp)]
    simp
  · rw [decimalValue_append, decimalValue_digits d1, decimalValue_digits d2, natStr_val, padNat_val, hl,
      Nat.mul_comm, Nat.div_add_mod, ← hk]
    refine rhe_nearest x.val.den_pos ?_
    have hm := rat_mul_den x.val
    have e : Spec.distance x.val 0 * x.val.den = (x.val.num.natAbs : Rat) := by
      have hd : (0 : Rat) < x.val.den := natCast_pos x.val.den_pos
      rcases distance_cases x.val 0 with ⟨h, e⟩ | ⟨h, e⟩
      · rw [e]
        have h1 : x.val.num ≤ 0 := by
          have := Rat.num_nonneg.2 (show 0 ≤ -x.val by grind)
          rw [Rat.neg_num] at this
          omega
        have h2 : ((x.val.num.natAbs : Nat) : Rat) = ((x.val.num.natAbs : Int) : Rat) := (Rat.intCast_natCast _).symm
        rw [h2, show ((x.val.num.natAbs : Nat) : Int) = -x.val.num by omega, Rat.intCast_neg, ← hm]
        grind
      · rw [e]
        have : 0 ≤ x.val.num := Rat.num_nonneg.2 h
        have h2 : ((x.val.num.natAbs : Nat) : Rat) = ((x.val.num.natAbs : Int) : Rat) := (Rat.intCast_natCast _).symm
        rw [h2, show ((x.val.num.natAbs : Nat) : Int) = x.val.num by omega, ← hm]
        grind
    rw [Rat.natCast_mul, Rat.natCast_pow, ← e]
    have c10 : ((10 : Nat) : Rat) = 10 := rfl
    rw [c10]
    grind

/-! ### The shortest decimal -/

theorem rnd_between {a b c x : Rat} (ha : rnd a = x) (hc : rnd c = x) (h1 : a ≤ b) (h2 : b ≤ c) : rnd b = x := by
  have := rnd_mono h1
  have := rnd_mono h2
  grind

theorem scale10_floor {x : Rat} (hx : 0 < x) (p : Int) (lo : Nat)
    (hlo : lo = (scale10 x.num.toNat x.den p).1 / (scale10 x.num.toNat x.den p).2) :
    (lo : Rat) * 10 ^ p ≤ x ∧ x < ((lo + 1 : Nat) : Rat) * 10 ^ p ∧
      NearestWhole (x / 10 ^ p) (rhe (scale10 x.num.toNat x.den p).1 (scale10 x.num.toNat x.den p).2) := by
  have hd := x.den_pos
  have hd' : (0 : Rat) < x.den := natCast_pos hd
  have h0 := scale10_pos x.num.toNat x.den hd p
  have h1 := scale10_eq x.num.toNat x.den p
  generalize scale10 x.num.toNat x.den p = s at *
  have hnum : ((x.num.toNat : Nat) : Rat) = x.num := by
    have := (rnd_pos x hx).2
    rw [← Rat.intCast_natCast, Int.toNat_of_nonneg (by omega)]
  rw [hnum, ← rat_mul_den] at h1
  have h2 : (s.1 : Rat) * 10 ^ p = x * s.2 := rat_cancel hd' (by grind)
  have h0' : (0 : Rat) < s.2 := natCast_pos h0
  have a1 := Nat.div_add_mod s.1 s.2
  have a2 := Nat.mod_lt s.1 h0
  rw [← hlo] at a1
  have ht := zpow_ten_pos p
  refine ⟨?_, ?_, ?_⟩
  · have := Rat.natCast_le_natCast.2 (show s.2 * lo ≤ s.1 by omega)
    rw [Rat.natCast_mul] at this
    have := Rat.mul_le_mul_of_nonneg_right this (Rat.le_of_lt ht)
    exact Rat.le_of_mul_le_mul_right (c := s.2) (by grind) h0'
  · have := Rat.natCast_lt_natCast.2 (show s.1 < s.2 * (lo + 1) by rw [Nat.mul_add, Nat.mul_one]; omega)
    rw [Rat.natCast_mul] at this
    have := Rat.mul_lt_mul_of_pos_right this ht
    exact Rat.lt_of_mul_lt_mul_right (c := s.2) (by grind) (Rat.le_of_lt h0')
  · refine rhe_nearest h0 ?_
    have hi : (10 : Rat) ^ p * (10 ^ p)⁻¹ = 1 := Rat.mul_inv_cancel _ (by grind)
    rw [Rat.div_def]
    have : x * (10 ^ p)⁻¹ * s.2 = (s.1 : Rat) * (10 ^ p * (10 ^ p)⁻¹) := by
      rw [← Rat.mul_assoc, h2]; grind
    rw [this, hi]
    grind

theorem distance_scaled {a b t : Rat} (ht : 0 < t) : Spec.distance (a * t) (b * t) = Spec.distance a b * t := by
  rcases distance_cases a b with ⟨h, e⟩ | ⟨h, e⟩
  · have := Rat.mul_le_mul_of_nonneg_right h (Rat.le_of_lt ht)
    rw [e]
    rcases distance_cases (a * t) (b * t) with ⟨h', e'⟩ | ⟨h', e'⟩
    · rw [e']; grind
    · rw [e']
      have : a * t = b * t := by grind
      have : a = b := rat_cancel ht this
      subst this; grind
  · have := Rat.mul_le_mul_of_nonneg_right h (Rat.le_of_lt ht)
    rw [e]
    rcases distance_cases (a * t) (b * t) with ⟨h', e'⟩ | ⟨h', e'⟩
    · rw [e']
      have : a * t = b * t := by grind
      have : a = b := rat_cancel ht this
      subst this; grind
    · rw [e']; grind

/-- What the search for an exponent finds. -/
structure Found (x : Rat) (top : Int) (k : Nat) (p : Int) : Prop where
  reads : rnd (k * 10 ^ p) = x
  highest : ∀ k' p', p < p' → p' ≤ top → rnd ((k' : Nat) * 10 ^ (p' : Int)) ≠ x
  closest : ∀ k', rnd ((k' : Nat) * 10 ^ p) = x → Spec.distance (k * 10 ^ p) x ≤ Spec.distance (k' * 10 ^ p) x
  tie : ∀ k', rnd ((k' : Nat) * 10 ^ p) = x → Spec.distance (k * 10 ^ p) x = Spec.distance (k' * 10 ^ p) x →
    k' ≠ k → k % 2 = 0

theorem step_mul (t : Rat) (ht : 0 < t) {a b : Nat} (h : a ≤ b) : (a : Rat) * t ≤ b * t :=
  Rat.mul_le_mul_of_nonneg_right (Rat.natCast_le_natCast.2 h) (Rat.le_of_lt ht)

theorem shortestGo_found {x : Rat} (hx : 0 < x) (hr : rnd x = x) (f : Nat) (p : Int)
    (hp : (10 : Rat) ^ 16 * 10 ^ (p - f + 1) ≤ x) (hf : 0 < f) :
    Found x p (shortestGo x.num.toNat x.den x f p).1 (shortestGo x.num.toNat x.den x f p).2 := by
  induction f generalizing p with
  | zero => omega
  | succ f ih =>
    have hreads := shortestGo_reads hx hr (f + 1) p hp hf
    rw [mulPow10_eq] at hreads
    revert hreads
    unfold shortestGo
    simp only
    obtain ⟨l1, l2, l3⟩ := scale10_floor hx p _ rfl
    generalize rhe (scale10 x.num.toNat x.den p).1 (scale10 x.num.toNat x.den p).2 = m at *
    generalize (scale10 x.num.toNat x.den p).1 / (scale10 x.num.toNat x.den p).2 = lo at *
    rw [mulPow10_eq, mulPow10_eq]
    have ht := zpow_ten_pos p
    have none : ∀ k' p', p < p' → p' ≤ p → rnd ((k' : Nat) * 10 ^ (p' : Int)) ≠ x := fun _ _ _ _ => by omega
    have below : ∀ k' : Nat, rnd (k' * 10 ^ p) = x → k' ≤ lo → rnd (lo * 10 ^ p) = x := fun k' h h' =>
      rnd_between h hr (step_mul _ ht h') l1
    have above : ∀ k' : Nat, rnd (k' * 10 ^ p) = x → lo < k' → rnd (((lo + 1 : Nat) : Rat) * 10 ^ p) = x := fun k' h h' =>
      rnd_between hr h (Rat.le_of_lt l2) (step_mul _ ht h')
    split
    · next h =>
      simp only
      intro hreads
      have e : x = x / 10 ^ p * 10 ^ p := by
        have hi : (10 : Rat) ^ p * (10 ^ p)⁻¹ = 1 := Rat.mul_inv_cancel _ (by grind)
        rw [Rat.div_def]
        grind
      have key : ∀ j : Nat, Spec.distance (j * 10 ^ p) x = Spec.distance j (x / 10 ^ p) * 10 ^ p := by
        intro j
        rw [← distance_scaled ht, ← e]
      refine ⟨hreads, none, fun k' _ => ?_, fun k' _ he hne => ?_⟩
      · rw [key, key]
        exact Rat.mul_le_mul_of_nonneg_right (l3.best k').1 (Rat.le_of_lt ht)
      · rw [key, key] at he
        exact (l3.best k').2 (rat_cancel ht he) hne
    · next h =>
      simp only [Bool.and_eq_true, decide_eq_true_eq, not_and] at h
      split
      · next h1 =>
        simp only [decide_eq_true_eq] at h1
        simp only
        intro hreads
        have le : ∀ k' : Nat, rnd (k' * 10 ^ p) = x → k' ≤ lo := fun k' h' =>
          Nat.le_of_not_lt fun hl => h h1 (above k' h' hl)
        have d : ∀ k' : Nat, k' ≤ lo → Spec.distance (k' * 10 ^ p) x = x - k' * 10 ^ p := by
          intro k' hk
          have := step_mul _ ht hk
          rcases distance_cases (k' * 10 ^ p) x with ⟨-, e⟩ | ⟨h', e⟩
          · exact e
          · rw [e]; grind
        refine ⟨hreads, none, fun k' hk => ?_, fun k' hk he hne => ?_⟩
        · rw [d k' (le k' hk), d lo (Nat.le_refl _)]
          have := step_mul _ ht (le k' hk)
          grind
        · rw [d k' (le k' hk), d lo (Nat.le_refl _)] at he
          have : (k' : Rat) * 10 ^ p = lo * 10 ^ p := by grind
          exact absurd (Rat.natCast_inj.1 (rat_cancel ht this)) hne
      · next h1 =>
        simp only [decide_eq_true_eq] at h1
        split
        · next h2 =>
          simp only [decide_eq_true_eq] at h2
          simp only
          intro hreads
          have le : ∀ k' : Nat, rnd (k' * 10 ^ p) = x → lo + 1 ≤ k' := fun k' h' =>
            Nat.lt_of_not_le fun hl => h1 (below k' h' hl)
          have d : ∀ k' : Nat, lo + 1 ≤ k' → Spec.distance (k' * 10 ^ p) x = k' * 10 ^ p - x := by
            intro k' hk
            have := step_mul _ ht hk
            rcases distance_cases (k' * 10 ^ p) x with ⟨h', e⟩ | ⟨h', e⟩
            · rw [e]; grind
            · exact e
          refine ⟨hreads, none, fun k' hk => ?_, fun k' hk he hne => ?_⟩
          · rw [d k' (le k' hk), d (lo + 1) (Nat.le_refl _)]
            have := step_mul _ ht (le k' hk)
            grind
          · rw [d k' (le k' hk), d (lo + 1) (Nat.le_refl _)] at he
            have : (k' : Rat) * 10 ^ p = ((lo + 1 : Nat) : Rat) * 10 ^ p := by grind
            exact absurd (Rat.natCast_inj.1 (rat_cancel ht this)) hne
        · next h2 =>
          simp only [decide_eq_true_eq] at h2
          intro _
          have hf : 0 < f := by
            rcases Nat.eq_zero_or_pos f with rfl | hf
            · exfalso
              have := nearest_reads hx hr (p := p) (by
                rw [show p - ((0 + 1 : Nat) : Int) + 1 = p by omega] at hp
                exact hp) rfl
              rw [mulPow10_eq] at this
              rcases Nat.lt_or_ge lo (rhe (scale10 x.num.toNat x.den p).1 (scale10 x.num.toNat x.den p).2) with hl | hl
              · exact h2 (above _ this hl)
              · exact h1 (below _ this hl)
            · exact hf
          have := ih (p - 1) (by
            rw [show p - 1 - (f : Int) + 1 = p - ((f + 1 : Nat) : Int) + 1 by omega]
            exact hp) hf
          refine ⟨this.reads, fun k' p' hp1 hp2 => ?_, this.closest, this.tie⟩
          rcases (by omega : p' ≤ p - 1 ∨ p' = p) with h3 | rfl
          · exact this.highest k' p' hp1 h3
          · intro hc
            rcases Nat.lt_or_ge lo k' with hl | hl
            · exact h2 (above k' hc hl)
            · exact h1 (below k' hc hl)

/-- The search starts high enough. -/
theorem shortest_found {x : Rat} (hx : 0 < x) (hr : rnd x = x) (top : Int) :
    Found x top (shortest x).1 (shortest x).2 := by
  have hs : (10 : Rat) ^ 16 * 10 ^ (((natStr (x.num.toNat / x.den)).length : Int) -
      ((natStr (x.num.toNat / x.den)).length + (natStr x.den).length + 20 : Nat) + 1) ≤ x := shortest_start hx
  have h := shortestGo_found hx hr _ _ hs (by omega)
  have hb : x < 10 ^ ((natStr (x.num.toNat / x.den)).length : Int) := by
    have hd' : (0 : Rat) < x.den := natCast_pos x.den_pos
    have h1 := rat_mul_den x
    have hn := (rnd_pos x hx).2
    have hnum : ((x.num.toNat : Nat) : Rat) = x.num := by
      rw [← Rat.intCast_natCast, Int.toNat_of_nonneg (by omega)]
    have h2 := natStr_bound (x.num.toNat / x.den)
    generalize (natStr (x.num.toNat / x.den)).length = w at *
    have h3 : x.num.toNat < 10 ^ w * x.den := (Nat.div_lt_iff_lt_mul x.den_pos).1 h2
    have h4 := Rat.natCast_lt_natCast.2 h3
    rw [Rat.natCast_mul, Rat.natCast_pow, hnum, ← h1] at h4
    rw [Rat.zpow_natCast]
    exact Rat.lt_of_mul_lt_mul_right (c := x.den) h4 (Rat.le_of_lt hd')
  refine ⟨h.reads, fun k' p' h1 h2 => ?_, h.closest, h.tie⟩
  rcases Int.lt_or_le ((natStr (x.num.toNat / x.den)).length : Int) p' with h3 | h3
  · intro hc
    generalize ((natStr (x.num.toNat / x.den)).length : Int) = w at *
    have hk : 0 < k' := by
      rcases Nat.eq_zero_or_pos k' with rfl | hk
      · have : ((0 : Nat) : Rat) * 10 ^ p' = 0 := Rat.zero_mul _
        rw [this, rnd_zero] at hc
        grind
      · exact hk
    have ht := zpow_ten_pos p'
    have e1 : (1 : Rat) * 10 ^ p' ≤ k' * 10 ^ p' :=
      Rat.mul_le_mul_of_nonneg_right (show ((1 : Nat) : Rat) ≤ k' from Rat.natCast_le_natCast.2 hk) (Rat.le_of_lt ht)
    have e2 := zpow_ten_mono (p := 1 + w) (q := p') (by omega)
    rw [Rat.zpow_add ten_ne_zero] at e2
    have c : (10 : Rat) ^ (1 : Int) = 10 := by decide +kernel
    rw [c] at e2
    obtain ⟨-, r⟩ := rnd_rel (k' * 10 ^ p') (by grind)
    rw [hc] at r
    grind
  · exact h.highest k' p' h1 h3

theorem Found.shortest {x : Rat} (hx : 0 < x) {k : Nat} {p : Int} (h : ∀ top, Found x top k p)
    (hm : ∀ q, Rounded q x → rnd q = x) (hq : Rounded (k * 10 ^ p) x) : ShortestDecimal x k p := by
  have hreads := (h 0).reads
  have high : ∀ k' p', rnd ((k' : Nat) * 10 ^ (p' : Int)) = x → p' ≤ p := by
    intro k' p' hk
    apply Classical.byContradiction
    intro hc
    exact (h p').highest k' p' (by omega) (Int.le_refl _) hk
  -- a power of ten between a decimal that is read as the number and `k * 10^p`
  have one : ∀ k' p' n, rnd ((k' : Nat) * 10 ^ (p' : Int)) = x → k' < 10 ^ n → 10 ^ n ≤ k → n = 0 := by
    intro k' p' n hk h1 h2
    have hp := high k' p' hk
    have e1 : (k' : Rat) * 10 ^ p' ≤ 10 ^ ((n : Int) + p) := by
      rw [← zpow_ten_nat]
      have a := step_mul _ (zpow_ten_pos p') (Nat.le_of_lt h1)
      have b := Rat.mul_le_mul_of_nonneg_left (zpow_ten_mono hp) (show (0 : Rat) ≤ ((10 ^ n : Nat) : Rat) from Rat.natCast_nonneg)
      grind
    have e2 : (10 : Rat) ^ ((n : Int) + p) ≤ k * 10 ^ p := by
      rw [← zpow_ten_nat]
      exact step_mul _ (zpow_ten_pos p) h2
    have := rnd_between hk hreads e1 e2
    have := high 1 (n + p) (by
      have : (((1 : Nat) : Rat)) * 10 ^ ((n : Int) + p) = 10 ^ ((n : Int) + p) := Rat.one_mul _
      rw [this]; assumption)
    omega
  have pos : ∀ k' p', rnd ((k' : Nat) * 10 ^ (p' : Int)) = x → 0 < k' := by
    intro k' p' hc
    rcases Nat.eq_zero_or_pos k' with rfl | hk
    · have : ((0 : Nat) : Rat) * 10 ^ p' = 0 := Rat.zero_mul _
      rw [this, rnd_zero] at hc
      grind
    · exact hk
  -- decimals of as many digits have the same exponent
  have same : ∀ k' p' n, rnd ((k' : Nat) * 10 ^ (p' : Int)) = x → k' < 10 ^ n → 10 ^ n ≤ 10 * k → p' = p := by
    intro k' p' n hk h1 h2
    have hp := high k' p' hk
    have hk0 := pos k' p' hk
    apply Classical.byContradiction
    intro hne
    have hn : 0 < n := by
      rcases Nat.eq_zero_or_pos n with rfl | hn
      · simp at h1; omega
      · exact hn
    obtain ⟨n, rfl⟩ : ∃ m, n = m + 1 := ⟨n - 1, by omega⟩
    have h2' : 10 ^ n ≤ k := by rw [Nat.pow_succ] at h2; omega
    -- 10^(n+p) is read as the number
    have e1 : (k' : Rat) * 10 ^ p' ≤ 10 ^ ((n : Int) + p) := by
      have a := step_mul _ (zpow_ten_pos p') (Nat.le_of_lt h1)
      rw [zpow_ten_nat] at a
      have b := zpow_ten_mono (p := ((n + 1 : Nat) : Int) + p') (q := n + p) (by omega)
      grind
    have e2 : (10 : Rat) ^ ((n : Int) + p) ≤ k * 10 ^ p := by
      rw [← zpow_ten_nat]
      exact step_mul _ (zpow_ten_pos p) h2'
    have e3 := rnd_between hk hreads e1 e2
    have e4 := high 1 (n + p) (by
      have : (((1 : Nat) : Rat)) * 10 ^ ((n : Int) + p) = 10 ^ ((n : Int) + p) := Rat.one_mul _
      rw [this]; assumption)
    have hn0 : n = 0 := by omega
    subst hn0
    -- now both 10^p and at most nine tenths of it are read as the number
    have e5 : (10 : Rat) * (k' * 10 ^ p') ≤ 9 * 10 ^ p := by
      have a : (k' : Rat) * 10 ^ p' ≤ ((9 : Nat) : Rat) * 10 ^ p' := step_mul _ (zpow_ten_pos p') (by omega)
      have b := zpow_ten_mono (p := 1 + p') (q := p) (by omega)
      rw [Rat.zpow_add ten_ne_zero] at b
      have c : (10 : Rat) ^ (1 : Int) = 10 := by decide +kernel
      have c9 : ((9 : Nat) : Rat) = 9 := rfl
      rw [c] at b
      rw [c9] at a
      grind
    rw [show ((0 : Nat) : Int) + p = p by omega] at e3
    have ht := zpow_ten_pos p
    have ht' := zpow_ten_pos p'
    have hk1 : (0 : Rat) < k' := natCast_pos hk0
    have hkp : 0 < (k' : Rat) * 10 ^ p' := Rat.mul_pos hk1 ht'
    obtain ⟨-, r1⟩ := rnd_rel (10 ^ p) (by grind)
    obtain ⟨r2, -⟩ := rnd_rel (k' * 10 ^ p') (by grind)
    rw [e3] at r1
    rw [hk] at r2
    have c53 : (2 : Rat) ^ 53 = 9007199254740992 := by decide +kernel
    rw [c53] at r1 r2
    grind
  refine ⟨hq, fun k' p' n hk h1 => ?_, fun k' p' n hk h1 h2 => ?_, fun k' p' n hk h1 h2 he hne => ?_⟩
  · apply Classical.byContradiction
    intro hc
    have := one k' p' n (hm _ hk) h1 (by omega)
    subst this
    have := pos k' p' (hm _ hk)
    simp at h1
    omega
  · have e := same k' p' n (hm _ hk) h1 h2
    subst e
    exact (h 0).closest k' (hm _ hk)
  · have e := same k' p' n (hm _ hk) h1 h2
    subst e
    refine (h 0).tie k' (hm _ hk) he ?_
    rintro rfl
    exact hne rfl

/-- Only numbers of the normal range are rounded to one inside it. -/
theorem rounded_rnd {x : Rat} (h1 : smallestNormal < x) (h2 : x < largest) {q : Rat} (h : Rounded q x) : rnd q = x := by
  have b1 : Binary64 smallestNormal :=
    ⟨4503599627370496, -1074, by decide +kernel, by omega, by omega, by omega, by omega⟩
  have b2 : Binary64 largest := ⟨9007199254740991, 971, by decide +kernel, by omega, by omega, by omega, by omega⟩
  refine ((rounded_iff (.inr (.inl ⟨?_, ?_⟩))).1 h).symm
  · have := h.nearest _ b1
    have d1 := distance_cases x q
    have d2 := distance_cases smallestNormal q
    grind
  · have := h.nearest _ b2
    have d1 := distance_cases x q
    have d2 := distance_cases largest q
    grind

theorem rnd_rounded_of {x : Rat} (h1 : smallestNormal < x) (h2 : x < largest) {q : Rat} (hq : rnd q = x) : Rounded q x := by
  -- `q` is within the normal range, because it is rounded to `x`
  have n0 : 0 < smallestNormal := by decide +kernel
  have n1 : rnd smallestNormal = smallestNormal := by decide +kernel
  have n2 : rnd largest = largest := by decide +kernel
  refine (rounded_iff (.inr (.inl ⟨?_, ?_⟩))).2 hq.symm
  · apply Classical.byContradiction
    intro hc
    have := rnd_mono (p := q) (q := smallestNormal) (by grind)
    grind
  · apply Classical.byContradiction
    intro hc
    have := rnd_mono (p := largest) (q := q) (by grind)
    grind

theorem shortest_decimal {x : Rat} (hx : 0 < x) (hr : rnd x = x) (h1 : smallestNormal < x) (h2 : x < largest) :
    ShortestDecimal x (Verif.shortest x).1 (Verif.shortest x).2 :=
  Found.shortest hx (shortest_found hx hr) (fun _ h => rounded_rnd h1 h2 h)
    (rnd_rounded_of h1 h2 (shortest_found hx hr 0).reads)

/-- Seventeen digits are enough. -/
theorem ShortestDecimal.short {x : Rat} (hx : 0 < x) (hr : rnd x = x) (h1 : smallestNormal < x) (h2 : x < largest)
    {k : Nat} {p : Int} (h : ShortestDecimal x k p) : k < 10 ^ 17 := by
  have hq := rounded_rnd h1 h2 h.reads
  apply Classical.byContradiction
  intro hc
  have hk : 0 < k := by
    have : 0 < 10 ^ 17 := by decide
    omega
  -- a power of ten that is read as the number would do
  have pow : ∀ m : Int, rnd (10 ^ m) ≠ x := by
    intro m hm
    have := h.fewest 1 m 1 (by
      have e : (((1 : Nat) : Rat)) * 10 ^ m = 10 ^ m := Rat.one_mul _
      rw [e]
      exact rnd_rounded_of h1 h2 hm) (by decide)
    omega
  have hl := step_mul _ (zpow_ten_pos p) (natStr_lower hk)
  have hb := step_mul _ (zpow_ten_pos p) (Nat.le_of_lt (natStr_bound k))
  rw [zpow_ten_nat] at hl hb
  have hL : 17 < (natStr k).length := by
    rcases Nat.lt_or_ge 17 (natStr k).length with h | h'
    · exact h
    · have := Nat.pow_le_pow_right (n := 10) (by omega) h'
      have := natStr_bound k
      omega
  generalize (natStr k).length = L at *
  have g1 : (10 : Rat) ^ (((L - 1 : Nat) : Int) + p) ≤ x := by
    apply Classical.byContradiction
    intro hn
    exact pow _ (rnd_between hr hq (by grind) hl)
  have g2 : x < (10 : Rat) ^ ((L : Int) + p) := by
    apply Classical.byContradiction
    intro hn
    exact pow _ (rnd_between hq hr hb (by grind))
  have e16 : (10 : Rat) ^ 16 * 10 ^ ((L : Int) + p - 17) = 10 ^ (((L - 1 : Nat) : Int) + p) := by
    have := zpow_ten_nat 16 ((L : Int) + p - 17)
    rw [Rat.natCast_pow] at this
    have c : ((10 : Nat) : Rat) = 10 := rfl
    rw [c] at this
    rw [this]
    congr 1
    omega
  have e17 : ((10 ^ 17 : Nat) : Rat) * 10 ^ ((L : Int) + p - 17) = 10 ^ ((L : Int) + p) := by
    rw [zpow_ten_nat]
    congr 1
    omega
  have hn := nearest_reads hx hr (p := (L : Int) + p - 17) (by rw [e16]; exact g1) rfl
  obtain ⟨f1, -, -⟩ := scale10_floor hx ((L : Int) + p - 17) _ rfl
  have hne := rhe_neighbour (scale10 x.num.toNat x.den ((L : Int) + p - 17)).1 (scale10 x.num.toNat x.den ((L : Int) + p - 17)).2
  rw [mulPow10_eq] at hn
  generalize rhe (scale10 x.num.toNat x.den ((L : Int) + p - 17)).1 (scale10 x.num.toNat x.den ((L : Int) + p - 17)).2 = m at *
  generalize (scale10 x.num.toNat x.den ((L : Int) + p - 17)).1 / (scale10 x.num.toNat x.den ((L : Int) + p - 17)).2 = lo at *
  have hlo : lo < 10 ^ 17 := by
    apply Classical.byContradiction
    intro hn
    have := step_mul _ (zpow_ten_pos ((L : Int) + p - 17)) (show 10 ^ 17 ≤ lo by omega)
    rw [e17] at this
    grind
  rcases Nat.lt_or_ge m (10 ^ 17) with hm | hm
  · exact hc (h.fewest m _ 17 (rnd_rounded_of h1 h2 hn) hm)
  · have : m = 10 ^ 17 := by omega
    rw [this, e17] at hn
    exact pow _ hn

/-! ### The text -/

theorem ShortestDecimal.last {x : Rat} (hx : 0 < x) {k : Nat} {p : Int} (h : ShortestDecimal x k p)
    (hr : rnd ((k : Rat) * 10 ^ p) = x) : 0 < k ∧ k % 10 ≠ 0 := by
  have hk : 0 < k := by
    rcases Nat.eq_zero_or_pos k with rfl | hk
    · have : ((0 : Nat) : Rat) * 10 ^ p = 0 := Rat.zero_mul _
      rw [this, rnd_zero] at hr
      grind
    · exact hk
  refine ⟨hk, fun h10 => ?_⟩
  have e : ((k / 10 : Nat) : Rat) * 10 ^ (p + 1) = k * 10 ^ p := by
    rw [show p + 1 = 1 + p by omega, Rat.zpow_add ten_ne_zero]
    have c : (10 : Rat) ^ (1 : Int) = 10 := by decide +kernel
    have h1 : (k : Rat) = ((k / 10 : Nat) : Rat) * 10 := by
      have : k = k / 10 * 10 := by omega
      have := congrArg (Nat.cast (R := Rat)) this
      rw [Rat.natCast_mul] at this
      exact this
    rw [c, h1]
    have : ((((k / 10 : Nat) : Rat) * 10 : Rat)) = ((k / 10 : Nat) : Rat) * 10 := rfl
    grind
  have hl := natStr_lower hk
  have hb := natStr_bound k
  have hlen : 2 ≤ (natStr k).length := by
    rcases Nat.lt_or_ge (natStr k).length 2 with h | h
    · have : k < 10 ^ 1 := Nat.lt_of_lt_of_le hb (Nat.pow_le_pow_right (by omega) (by omega))
      omega
    · exact h
  have := h.fewest (k / 10) (p + 1) ((natStr k).length - 1) (by rw [e]; exact h.reads) (by
    have : 10 ^ (natStr k).length = 10 ^ ((natStr k).length - 1) * 10 := by
      rw [← Nat.pow_succ]
      congr 1
      omega
    rw [this] at hb
    omega)
  omega

theorem natStr_last {n : Nat} (h : n % 10 ≠ 0) : (natStr n).getLast? ≠ some 48 := by
  intro hc
  obtain ⟨l, hl⟩ := List.getLast?_eq_some_iff.1 hc
  have hd := ascii_range (natStr_ascii n)
  have := natStr_val n
  rw [← decimalValue_digits hd, hl, decimalValue_append] at this
  have c : decimalValue [48] = 0 := rfl
  simp [c] at this
  omega

theorem last_append (a : PyStr) {b : PyStr} (h : b ≠ []) : (a ++ b).getLast? = b.getLast? := by
  rw [List.getLast?_append]
  cases hb : b.getLast? with
  | none => exact absurd (List.getLast?_eq_none_iff.1 hb) h
  | some c => rfl

theorem pointed_point {ds : PyStr} (hne : ds ≠ []) (hd : DigitText ds) (hh : ds.head? ≠ some 48)
    (hl : ds.getLast? ≠ some 48) {pt : Int} (h1 : -4 < pt) (h2 : pt ≤ 16) :
    ∃ w f, PointText (pointed ds pt) w f ∧ (f = [48] ∨ f.getLast? ≠ some 48) := by
  have zeros : ∀ k, ∀ c ∈ List.replicate k 48, 48 ≤ c ∧ c ≤ 57 := by
    intro k c hc
    rw [List.mem_replicate] at hc
    omega
  unfold pointed
  rw [if_neg (by omega)]
  split
  · refine ⟨[48], List.replicate pt.natAbs 48 ++ ds, ⟨by simp, ⟨by simp, by intro c hc; simp at hc; omega⟩, .inl rfl,
      by simp [hne], ?_⟩, .inr ?_⟩
    · intro c hc
      rcases List.mem_append.1 hc with hc | hc
      · exact zeros _ c hc
      · exact hd c hc
    · rw [last_append _ hne]
      exact hl
  · split
    · refine ⟨ds ++ List.replicate (pt.toNat - ds.length) 48, [48], ⟨by simp, ⟨by simp [hne], ?_⟩, .inr ?_, by simp,
        by intro c hc; simp at hc; omega⟩, .inl rfl⟩
      · intro c hc
        rcases List.mem_append.1 hc with hc | hc
        · exact hd c hc
        · exact zeros _ c hc
      · cases ds with
        | nil => exact absurd rfl hne
        | cons c cs => exact hh
    · next h3 h4 =>
      have hdrop : ds.drop pt.toNat ≠ [] := by
        intro hc
        rw [List.drop_eq_nil_iff] at hc
        omega
      refine ⟨ds.take pt.toNat, ds.drop pt.toNat, ⟨by simp, ⟨?_, fun c hc => hd c (List.mem_of_mem_take hc)⟩, .inr ?_,
        hdrop, fun c hc => hd c (List.mem_of_mem_drop hc)⟩, .inr ?_⟩
      · intro hc
        rw [List.take_eq_nil_iff] at hc
        rcases hc with hc | hc
        · omega
        · exact hne hc
      · cases ds with
        | nil => exact absurd rfl hne
        | cons c cs =>
          obtain ⟨m, hm⟩ : ∃ m, pt.toNat = m + 1 := ⟨pt.toNat - 1, by omega⟩
          rw [hm]
          exact hh
      · rw [← List.take_append_drop pt.toNat ds, last_append _ hdrop] at hl
        exact hl

theorem pad2_form (n : Nat) : DigitText (padNat 2 n) ∧ 2 ≤ (padNat 2 n).length ∧
    ((padNat 2 n).length = 2 ∨ (padNat 2 n).head? ≠ some 48) := by
  refine ⟨ascii_range (padNat_ascii 2 n), ?_, ?_⟩
  · unfold padNat; simp; omega
  · rcases Nat.lt_or_ge n 100 with h | h
    · left; exact padNat_length 2 n (by omega) h
    · right
      have hl := natStr_bound n
      have : 2 < (natStr n).length := by
        rcases Nat.lt_or_ge 2 (natStr n).length with h | h'
        · exact h
        · have := Nat.pow_le_pow_right (n := 10) (by omega) h'
          omega
      unfold padNat
      simp only
      rw [show 2 - (natStr n).length = 0 by omega]
      simp only [List.replicate_zero, List.nil_append]
      exact natStr_head (by omega)

theorem pointed_power {ds : PyStr} (hne : ds ≠ []) (hd : DigitText ds) (hh : ds.head? ≠ some 48)
    (hl : ds.getLast? ≠ some 48) {pt : Int} (h : pt ≤ -4 ∨ 16 < pt) :
    ∃ d f s e, PowerText (pointed ds pt) d f s e := by
  cases ds with
  | nil => exact absurd rfl hne
  | cons c cs =>
    unfold pointed
    rw [if_pos h]
    have hc := hd c (by simp)
    have hc' : c ≠ 48 := fun e => hh (by rw [e]; rfl)
    refine ⟨c, cs, if pt - 1 < 0 then 45 else 43, padNat 2 (pt - 1).natAbs, ⟨?_, by omega,
      ⟨fun d hd' => hd d (by simp [hd']), ?_⟩, ?_, pad2_form _⟩⟩
    · cases cs with
      | nil =>
        rw [if_pos (show [c].length ≤ 1 by simp)]
        by_cases hp : pt - 1 < 0
        · simp [hp]
        · simp [hp]
      | cons d cs =>
        rw [if_neg (show ¬ (c :: d :: cs).length ≤ 1 by simp)]
        by_cases hp : pt - 1 < 0
        · simp [hp]
        · simp [hp]
    · cases cs with
      | nil => simp
      | cons d cs => rwa [List.getLast?_cons_cons] at hl
    · split
      · exact .inr rfl
      · exact .inl rfl

theorem point_place {k : Nat} (hk : 0 < k) (p : Int) :
    (1 / 10000 ≤ (k : Rat) * 10 ^ p ∧ (k : Rat) * 10 ^ p < 10 ^ 16) ↔
      -4 < ((natStr k).length : Int) + p ∧ ((natStr k).length : Int) + p ≤ 16 := by
  have h1 := step_mul _ (zpow_ten_pos p) (natStr_lower hk)
  have h2 := Rat.mul_lt_mul_of_pos_right (Rat.natCast_lt_natCast.2 (natStr_bound k)) (zpow_ten_pos p)
  rw [zpow_ten_nat] at h1 h2
  have hl : 0 < (natStr k).length := List.length_pos_iff.2 (natStr_ne k)
  generalize (natStr k).length = L at *
  have c1 : (1 / 10000 : Rat) = 10 ^ (-4 : Int) := by decide +kernel
  have c2 : (10 : Rat) ^ 16 = 10 ^ (16 : Int) := by decide +kernel
  rw [c1, c2]
  generalize (k : Rat) * 10 ^ p = v at *
  constructor
  · rintro ⟨a, b⟩
    constructor
    · apply Classical.byContradiction
      intro hc
      have := zpow_ten_mono (p := (L : Int) + p) (q := -4) (by omega)
      grind
    · apply Classical.byContradiction
      intro hc
      have := zpow_ten_mono (p := 16) (q := ((L - 1 : Nat) : Int) + p) (by omega)
      grind
  · rintro ⟨a, b⟩
    constructor
    · have := zpow_ten_mono (p := -4) (q := ((L - 1 : Nat) : Int) + p) (by omega)
      grind
    · have := zpow_ten_mono (p := (L : Int) + p) (q := 16) (by omega)
      grind

/-- `repr` of a double in the normal range. -/
theorem floatRepr_text {x : F64} (hd : Double x) (h0 : x.val ≠ 0) (h1 : smallestNormal < Spec.distance x.val 0)
    (h2 : Spec.distance x.val 0 < largest) : ReprText x (floatRepr x) := by
  have ha : (if x.val < 0 then -x.val else x.val) = Spec.distance x.val 0 := by
    rcases distance_cases x.val 0 with ⟨h, e⟩ | ⟨h, e⟩
    · rw [e, if_pos (by grind)]; grind
    · rw [e, if_neg (by grind)]; grind
  have hr : rnd (Spec.distance x.val 0) = Spec.distance x.val 0 := by
    rw [← ha]
    split
    · rw [rnd_neg, hd.1]
    · exact hd.1
  have hx : 0 < Spec.distance x.val 0 := by rw [← ha]; grind
  have hs := shortest_decimal hx hr h1 h2
  have hq := (shortest_found hx hr 0).reads
  unfold floatRepr
  rw [if_neg h0, ha]
  simp only
  generalize Verif.shortest (Spec.distance x.val 0) = kp at *
  obtain ⟨hk, hk10⟩ := ShortestDecimal.last hx hs hq
  have dd := ascii_range (natStr_ascii kp.1)
  refine ⟨kp.1, kp.2, pointed (natStr kp.1) ((natStr kp.1).length + kp.2), hs, ?_, ?_, ?_, fun h => ?_, fun h => ?_⟩
  · have := readDecimal_pointed (natStr_ne kp.1) dd (natStr_head hk) (pt := (natStr kp.1).length + kp.2) (t := []) trivial
    rw [List.append_nil, decimalValue_digits dd, natStr_val,
      show ((natStr kp.1).length : Int) + kp.2 - (natStr kp.1).length = kp.2 by omega] at this
    exact this
  · intro h
    rw [if_pos ((sgn_negative x).2 h)]
    rfl
  · intro h
    rw [if_neg (by rw [sgn_eq_false.2 h]; simp)]
    rfl
  · have := (point_place hk kp.2).1 h
    exact pointed_point (natStr_ne _) dd (natStr_head hk) (natStr_last hk10) this.1 this.2
  · have := fun h' => h ((point_place hk kp.2).2 h')
    exact pointed_power (natStr_ne _) dd (natStr_head hk) (natStr_last hk10)
      (Classical.byContradiction fun hc => this (by omega))

theorem distance_double_rnd {v : Rat} (h : rnd v = v) : rnd (Spec.distance v 0) = Spec.distance v 0 := by
  rcases distance_cases v 0 with ⟨-, e⟩ | ⟨-, e⟩
  · rw [e, show (0 : Rat) - v = -v by grind, rnd_neg, h]
  · rw [e, show v - 0 = v by grind, h]

theorem moderate_normal {x : F64} (hm : Moderate x) (h0 : x.val ≠ 0) :
    0 < Spec.distance x.val 0 ∧ smallestNormal < Spec.distance x.val 0 ∧ Spec.distance x.val 0 < largest := by
  have c0 : (0 : Rat) < 1 / 10 ^ 100 := by decide +kernel
  have c1 : smallestNormal < 1 / 10 ^ 100 := by decide +kernel
  have c2 : (10 : Rat) ^ 100 < largest := by decide +kernel
  have d := distance_cases x.val 0
  unfold Moderate at hm
  generalize (1 / 10 ^ 100 : Rat) = u at *
  generalize ((10 : Rat) ^ 100) = v at *
  grind

end Verif
