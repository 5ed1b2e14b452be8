import Verif.Lemmas.Binary64
import Verif.Lemmas.Bounds
import Verif.Lemmas.MadeReports

/-
The numbers of a report are far from the limits of the format.
-/

namespace Verif
open Spec

/-! ### Operations -/

theorem inRange_of {q lo hi : Rat} (hlo : smallestNormal ≤ lo) (hhi : hi ≤ largest)
    (h : q = 0 ∨ (lo ≤ q ∧ q ≤ hi) ∨ (lo ≤ -q ∧ -q ≤ hi)) : InRange q := by
  unfold InRange
  grind

/-- Zero, or of a magnitude between `lo` and `hi`. -/
def Magnitude (lo hi q : Rat) : Prop := q = 0 ∨ (lo ≤ q ∧ q ≤ hi) ∨ (lo ≤ -q ∧ -q ≤ hi)

theorem Magnitude.neg {lo hi q : Rat} (h : Magnitude lo hi q) : Magnitude lo hi (-q) := by
  unfold Magnitude at *; grind

theorem mul_bounds {a b lo hi : Rat} (hlo : 0 ≤ lo) (a1 : lo ≤ a) (a2 : a ≤ hi) (b1 : lo ≤ b) (b2 : b ≤ hi) :
    lo * lo ≤ a * b ∧ a * b ≤ hi * hi := by
  have h1 := Rat.mul_le_mul_of_nonneg_left b1 (show 0 ≤ a by grind)
  have h2 := Rat.mul_le_mul_of_nonneg_right a1 hlo
  have h3 := Rat.mul_le_mul_of_nonneg_left b2 (show 0 ≤ a by grind)
  have h4 := Rat.mul_le_mul_of_nonneg_right a2 (show 0 ≤ hi by grind)
  grind

theorem Magnitude.mul {a b lo hi : Rat} (hlo : 0 ≤ lo) (ha : Magnitude lo hi a) (hb : Magnitude lo hi b) :
    Magnitude (lo * lo) (hi * hi) (a * b) := by
  have key : ∀ {a b : Rat}, lo ≤ a ∧ a ≤ hi → lo ≤ b ∧ b ≤ hi → lo * lo ≤ a * b ∧ a * b ≤ hi * hi :=
    fun ha hb => mul_bounds hlo ha.1 ha.2 hb.1 hb.2
  rcases ha with rfl | ha | ha
  · left; grind
  · rcases hb with rfl | hb | hb
    · left; grind
    · exact .inr (.inl (key ha hb))
    · have := key ha hb
      exact .inr (.inr (by grind))
  · rcases hb with rfl | hb | hb
    · left; grind
    · have := key ha hb
      exact .inr (.inr (by grind))
    · have := key ha hb
      exact .inr (.inl (by grind))

theorem inv_bounds {b lo hi : Rat} (hlo : 0 < lo) (h : lo * hi = 1) (b1 : lo ≤ b) (b2 : b ≤ hi) :
    lo ≤ b⁻¹ ∧ b⁻¹ ≤ hi := by
  have hb : 0 < b := by grind
  have hi' : (0 : Rat) ≤ b⁻¹ := Rat.le_of_lt (Rat.inv_pos.2 hb)
  have e : b * b⁻¹ = 1 := Rat.mul_inv_cancel _ (by grind)
  have h1 := Rat.mul_le_mul_of_nonneg_left (Rat.mul_le_mul_of_nonneg_right b1 hi') (show 0 ≤ hi by grind)
  have h2 := Rat.mul_le_mul_of_nonneg_left (Rat.mul_le_mul_of_nonneg_right b2 hi') (show 0 ≤ lo by grind)
  rw [e, ← Rat.mul_assoc, Rat.mul_comm hi lo, h] at h1
  rw [e, ← Rat.mul_assoc lo hi, h] at h2
  grind

theorem Magnitude.inv {b lo hi : Rat} (hlo : 0 < lo) (h : lo * hi = 1) (hb : Magnitude lo hi b) :
    Magnitude lo hi b⁻¹ := by
  rcases hb with rfl | hb | hb
  · left; exact Rat.inv_zero
  · exact .inr (.inl (inv_bounds hlo h hb.1 hb.2))
  · have := inv_bounds hlo h hb.1 hb.2
    have e : (-b)⁻¹ = -b⁻¹ := by
      have hb0 : b ≠ 0 := by grind
      have e1 : b * b⁻¹ = 1 := Rat.mul_inv_cancel _ hb0
      have e2 : -b * (-b)⁻¹ = 1 := Rat.mul_inv_cancel _ (by grind)
      have e3 : b * ((-b)⁻¹ + b⁻¹) = 0 := by grind
      rcases Rat.mul_eq_zero.1 e3 with e4 | e4
      · exact absurd e4 hb0
      · grind
    rw [e] at this
    exact .inr (.inr this)

theorem moderate_iff {x : F64} : Moderate x ↔ Magnitude (1 / 10 ^ 100) (10 ^ 100) x.val := Iff.rfl

theorem inRange_product {q : Rat} (h : Magnitude (1 / 10 ^ 100 * (1 / 10 ^ 100)) (10 ^ 100 * 10 ^ 100) q) : InRange q :=
  inRange_of (by decide +kernel) (by decide +kernel) h

/-- A double that is not tiny is a multiple of a unit. -/
theorem double_multiple {x : F64} (hd : rnd x.val = x.val) (hm : Moderate x) :
    ∃ j : Int, x.val = j * 2 ^ (-400 : Int) := by
  have key : ∀ q : Rat, rnd q = q → 1 / 10 ^ 100 ≤ q → ∃ j : Int, q = j * 2 ^ (-400 : Int) := by
    intro q hr hq
    have hpos : 0 < q := by
      have : (0 : Rat) < 1 / 10 ^ 100 := by decide +kernel
      grind
    obtain ⟨k, e, h1, -, -, -, h5, -⟩ := rnd_form q hpos
    have he : -400 ≤ e := by
      have : (2 : Rat) ^ (-401 : Int) < 2 ^ e := by
        have h6 : 9007199254740992 * (2 : Rat) ^ (-401 : Int) ≤ 1 / 10 ^ 100 := by decide +kernel
        grind
      have := zpow_lt_imp this
      omega
    refine ⟨k * 2 ^ (e - (-400)).toNat, ?_⟩
    rw [← hr, h1, zpow_split he, Rat.intCast_mul, Rat.intCast_natCast]
    grind
  rcases hm with h | h | h
  · exact ⟨0, by rw [h, Rat.intCast_zero]; grind⟩
  · exact key _ hd h.1
  · obtain ⟨j, hj⟩ := key (-x.val) (by rw [rnd_neg, hd]) h.1
    exact ⟨-j, by rw [Rat.intCast_neg]; grind⟩

theorem inRange_sum {a b : F64} (ha : rnd a.val = a.val) (ma : Moderate a) (hb : rnd b.val = b.val) (mb : Moderate b) :
    InRange (a.val + b.val) ∧ InRange (a.val - b.val) := by
  obtain ⟨i, hi⟩ := double_multiple ha ma
  obtain ⟨j, hj⟩ := double_multiple hb mb
  have top : ∀ x : F64, Moderate x → x.val ≤ 10 ^ 100 ∧ -x.val ≤ 10 ^ 100 := by
    intro x h
    have : (0 : Rat) ≤ 10 ^ 100 := by decide +kernel
    have : (0 : Rat) ≤ 1 / 10 ^ 100 := by decide +kernel
    unfold Moderate at h
    grind
  have ta := top a ma
  have tb := top b mb
  have hl : (10 : Rat) ^ 100 + 10 ^ 100 ≤ largest := by decide +kernel
  have hs : smallestNormal ≤ (2 : Rat) ^ (-400 : Int) := by decide +kernel
  have key : ∀ k : Int, (k : Rat) * 2 ^ (-400 : Int) ≤ 10 ^ 100 + 10 ^ 100 → -((k : Rat) * 2 ^ (-400 : Int)) ≤ 10 ^ 100 + 10 ^ 100 →
      InRange ((k : Rat) * 2 ^ (-400 : Int)) := by
    intro k h1 h2
    have ht := zpow_two_pos (-400)
    rcases Int.lt_trichotomy k 0 with hk | hk | hk
    · have : (1 : Rat) ≤ -k := by
        have := Rat.intCast_le_intCast.2 (show (1 : Int) ≤ -k by omega)
        rwa [Rat.intCast_neg] at this
      have := Rat.mul_le_mul_of_nonneg_right this (Rat.le_of_lt ht)
      exact .inr (.inr ⟨by grind, by grind⟩)
    · subst hk; left; rw [Rat.intCast_zero]; grind
    · have : (1 : Rat) ≤ k := by
        have := Rat.intCast_le_intCast.2 (show (1 : Int) ≤ k by omega)
        exact this
      have := Rat.mul_le_mul_of_nonneg_right this (Rat.le_of_lt ht)
      exact .inr (.inl ⟨by grind, by grind⟩)
  constructor
  · have e : a.val + b.val = ((i + j : Int) : Rat) * 2 ^ (-400 : Int) := by rw [hi, hj, Rat.intCast_add]; grind
    rw [e]
    exact key _ (by rw [← e]; grind) (by rw [← e]; grind)
  · have e : a.val - b.val = ((i - j : Int) : Rat) * 2 ^ (-400 : Int) := by rw [hi, hj, Rat.intCast_sub]; grind
    rw [e]
    exact key _ (by rw [← e]; grind) (by rw [← e]; grind)

theorem rnd_sign (q : Rat) : (rnd q < 0 ↔ q < 0) ∧ (rnd q = 0 ↔ q = 0) := by
  have pos : ∀ q : Rat, 0 < q → 0 < rnd q := by
    intro q h
    obtain ⟨h1, h2⟩ := rnd_rel q (Rat.le_of_lt h)
    grind
  rcases (by grind : q < 0 ∨ q = 0 ∨ 0 < q) with h | rfl | h
  · have := pos (-q) (by grind)
    rw [rnd_neg] at this
    grind
  · rw [rnd_zero]; simp
  · have := pos q h
    grind

theorem mk'_negative (q : Rat) (sg : Bool) : Negative (F64.mk' q sg) ↔ q < 0 ∨ (q = 0 ∧ sg = true) := by
  have h := rnd_sign q
  unfold Negative F64.mk'
  simp only [Bool.and_eq_true, decide_eq_true_eq]
  rw [h.1, h.2]

theorem sgn_negative (x : F64) : x.sgn = true ↔ Negative x := by
  unfold F64.sgn Negative
  simp

theorem sgn_eq_false {x : F64} : x.sgn = false ↔ ¬ Negative x := by
  rw [← sgn_negative]; cases x.sgn <;> simp

/-- The sign of a product or quotient whose factors are doubles. -/
theorem sign_product {a b : F64} {p : Rat} (ha : Double a) (hb : Double b)
    (hp : p < 0 ↔ (a.val < 0 ∧ 0 < b.val) ∨ (0 < a.val ∧ b.val < 0)) (h0 : p = 0 ↔ a.val = 0 ∨ b.val = 0) :
    Negative (F64.mk' p (a.sgn != b.sgn)) ↔ ¬ (Negative a ↔ Negative b) := by
  rw [mk'_negative, hp, h0]
  have e : (a.sgn != b.sgn) = true ↔ ¬ (Negative a ↔ Negative b) := by
    rw [← sgn_negative, ← sgn_negative]
    cases a.sgn <;> cases b.sgn <;> decide
  rw [e]
  have ha := ha.2
  have hb := hb.2
  unfold Negative
  grind

theorem rat_mul_neg (a b : Rat) : a * b < 0 ↔ (a < 0 ∧ 0 < b) ∨ (0 < a ∧ b < 0) := by
  have pos : ∀ {a b : Rat}, 0 < a → 0 < b → 0 < a * b := fun h1 h2 => Rat.mul_pos h1 h2
  rcases (by grind : a < 0 ∨ a = 0 ∨ 0 < a) with h | rfl | h
  · rcases (by grind : b < 0 ∨ b = 0 ∨ 0 < b) with g | rfl | g
    · have := pos (show 0 < -a by grind) (show 0 < -b by grind); grind
    · rw [Rat.mul_zero]; grind
    · have := pos (show 0 < -a by grind) g; grind
  · rw [Rat.zero_mul]; grind
  · rcases (by grind : b < 0 ∨ b = 0 ∨ 0 < b) with g | rfl | g
    · have := pos h (show 0 < -b by grind); grind
    · rw [Rat.mul_zero]; grind
    · have := pos h g; grind

theorem rat_inv_sign (b : Rat) : (b⁻¹ < 0 ↔ b < 0) ∧ (0 < b⁻¹ ↔ 0 < b) ∧ (b⁻¹ = 0 ↔ b = 0) := by
  rcases (by grind : b < 0 ∨ b = 0 ∨ 0 < b) with g | rfl | g
  · have e : b * b⁻¹ = 1 := Rat.mul_inv_cancel _ (by grind)
    have := rat_mul_neg b b⁻¹
    have : b⁻¹ < 0 := by
      rcases (by grind : b⁻¹ < 0 ∨ b⁻¹ = 0 ∨ 0 < b⁻¹) with h | h | h
      · exact h
      · rw [h, Rat.mul_zero] at e; grind
      · grind
    grind
  · rw [Rat.inv_zero]; grind
  · have := Rat.inv_pos.2 g
    grind

/-! ### Numbers that are kept, and converted -/

/-- Zero or at least 0.05. -/
def NotTiny (v : Option F64) : Prop := ∀ x, v = some x → x.val = 0 ∨ 1 / 20 ≤ x.val

theorem NotTiny.none : NotTiny none := by intro x h; cases h

theorem NotTiny.whole (n : Nat) : NotTiny (some (whole n)) := by
  intro x h; cases h
  rcases Nat.eq_zero_or_pos n with rfl | hn
  · left; rfl
  · right
    have : (1 : Rat) ≤ n := natCast_le hn
    show 1 / 20 ≤ (n : Rat)
    grind

theorem NotTiny.wholes (o : Option Nat) : NotTiny (o.map Spec.whole) := by
  cases o with
  | none => exact .none
  | some n => exact .whole n

theorem NotTiny.rel {e x y : Rat} (h : Rel e x y) (he' : e ≤ 1 / 2) (hy : y = 0 ∨ 1 / 10 ≤ y) :
    NotTiny (some ⟨x, false⟩) := by
  intro z hz
  cases hz
  obtain ⟨h0, h1, h2⟩ := h
  have q : e * y ≤ 1 / 2 * y := Rat.mul_le_mul_of_nonneg_right he' h0
  simp only
  rcases hy with rfl | hy
  · left; grind
  · right; grind

/-- A number as it is kept by a report. -/
structure Kept (v : Option F64) : Prop where
  double : IsDouble v
  small : NotTiny v
  range : Between 0 400000 v

theorem ordinary_of_rnd {x : F64} (hr : Double x) (hs : x.val = 0 ∨ (1 / 100000 ≤ x.val ∧ x.val ≤ 100000000) ∨
    (1 / 100000 ≤ -x.val ∧ -x.val ≤ 100000000)) : Ordinary x := by
  refine ⟨hr.2, ?_, hs⟩
  have := (rnd_rounded (q := x.val) (inRange_of (by decide +kernel) (by decide +kernel) hs)).format
  rwa [hr.1] at this

theorem Kept.ordinary {v : Option F64} (h : Kept v) {x : F64} (hx : v = some x) : Ordinary x := by
  have h1 := h.small x hx
  have h2 := h.range x hx
  refine ordinary_of_rnd (h.double x hx) ?_
  grind

theorem Kept.converted {v : Option F64} (h : Kept v) {f : F64} (f1 : 1 / 2000 ≤ f.val) (f2 : f.val ≤ 100) {x : F64}
    (hx : converted v f = some x) : Ordinary x := by
  unfold Verif.converted at hx
  obtain ⟨y, hy, rfl⟩ := Option.map_eq_some_iff.1 hx
  have h1 := h.small y hy
  have h2 := h.range y hy
  have e : (y.mul f).val = rnd (y.val * f.val) := rfl
  refine ordinary_of_rnd (double_mk _ _) ?_
  rw [e]
  rcases h1 with h1 | h1
  · left; rw [h1, Rat.zero_mul, rnd_zero]
  · right; left
    have p1 := Rat.mul_le_mul_of_nonneg_left f1 (show 0 ≤ y.val by grind)
    have p2 := Rat.mul_le_mul_of_nonneg_left f2 (show 0 ≤ y.val by grind)
    have m1 := rnd_mono (p := 1 / 40000) (q := y.val * f.val) (by grind)
    have m2 := rnd_mono (p := y.val * f.val) (q := 40000000) (by grind)
    have c1 : 1 / 100000 ≤ rnd (1 / 40000) := by decide +kernel
    have c2 : rnd 40000000 ≤ 100000000 := by decide +kernel
    grind

/-! ### The kinds of groups -/

theorem knots_notTiny {mps : Bool} {o : Option Nat} {v : Option F64} (h : Knots mps o v) : NotTiny v := by
  cases o with
  | none => unfold Knots at h; simp only at h; rw [h]; exact .none
  | some n =>
    unfold Knots at h
    simp only at h
    cases mps
    · simp only [Bool.false_eq_true, if_false] at h
      rw [h]
      exact .whole n
    · simp only [if_true] at h
      obtain ⟨x, rfl, hr⟩ := h
      refine .rel hr (by decide +kernel) ?_
      rcases Nat.eq_zero_or_pos n with rfl | hn
      · left; decide +kernel
      · right
        have hn : (1 : Rat) ≤ n := natCast_le hn
        have : (n : Rat) / (51444444 / 100000000) = n * (100000000 / 51444444) := by grind
        rw [this]
        have p := Rat.mul_le_mul_of_nonneg_right hn (c := (100000000 / 51444444 : Rat)) (by decide +kernel)
        refine Rat.le_trans ?_ p
        decide +kernel

theorem wind_notTiny {w : WindGroup} {x : MetarWind} (h : WindSays w x) :
    NotTiny x.direction.value ∧ NotTiny x.speed ∧ NotTiny x.gust := by
  obtain ⟨-, h1, h2, h3⟩ := h
  refine ⟨?_, knots_notTiny h2, knots_notTiny h3⟩
  rw [h1]
  exact .wholes _

theorem variation_notTiny {w : VariationGroup} {x : WindVariation} (h : variationGrammar.Says w x) :
    NotTiny x.from_.value ∧ NotTiny x.to.value := by
  obtain ⟨-, h1, h2⟩ := h
  rw [h1, h2]
  exact ⟨.whole _, .whole _⟩

theorem digit_div_low {a b : Nat} (hb : b ≤ 9) : (a : Rat) / (b : Rat) = 0 ∨ 1 / 9 ≤ (a : Rat) / (b : Rat) := by
  rcases Nat.eq_zero_or_pos b with rfl | hb0
  · left; simp [Rat.div_def]
  · rcases Nat.eq_zero_or_pos a with rfl | ha
    · left; simp [Rat.div_def]
    · right
      have h1 : (1 : Rat) ≤ b := natCast_le hb0
      have h2 : (b : Rat) ≤ 9 := natCast_le hb
      have h3 : (1 : Rat) ≤ a := natCast_le ha
      have hi : (b : Rat) * (b : Rat)⁻¹ = 1 := Rat.mul_inv_cancel _ (by grind)
      have h0 : (0 : Rat) ≤ (b : Rat)⁻¹ := Rat.le_of_lt (Rat.inv_pos.2 (by grind))
      have p1 := Rat.mul_le_mul_of_nonneg_right h2 h0
      have p2 := Rat.mul_le_mul_of_nonneg_right h3 h0
      rw [Rat.div_def]
      grind

theorem vis_notTiny {g : VisGroup} {x : Visibility} (h : VisSays g x) :
    NotTiny x.vis ∧ NotTiny x.direction.value := by
  refine ⟨?_, by rw [h.2.1]; exact .wholes _⟩
  have h := h.1
  cases g with
  | metres v d =>
    have h : x.vis = v.number.map whole := h
    rw [h]
    exact .wholes _
  | cavok =>
    have h : x.vis = some (whole 10000) := h
    rw [h]
    exact .whole _
  | range r =>
    unfold VisGroup.SaysMetres at h
    simp only at h
    split at h
    · split at h
      · rw [h]; exact .none
      · obtain ⟨v, hv, hr⟩ := h
        rw [hv]
        refine .rel hr (by decide +kernel) ?_
        have h1 : wholePart r.integer = 0 ∨ 1 ≤ wholePart r.integer := by
          cases hi : r.integer with
          | none => left; rfl
          | some ds =>
            rcases Nat.eq_zero_or_pos (digitsVal ds) with h0 | h0
            · left
              show ((digitsVal ds : Nat) : Rat) = 0
              rw [h0]; rfl
            · exact .inr (natCast_le h0)
        have h2 : fractionPart r.fraction = 0 ∨ 1 / 9 ≤ fractionPart r.fraction := by
          cases hf : r.fraction with
          | none => left; rfl
          | some p =>
            obtain ⟨a, b⟩ := p
            have hb : digitVal b ≤ 9 := by
              have := digitsVal_lt [b]
              have e : digitsVal [b] = digitVal b := by simp [digitsVal]
              rw [e] at this
              simp at this
              omega
            exact digit_div_low hb
        unfold Range.amount
        grind
    · rw [h]
      cases r.integer with
      | none => exact .none
      | some ds => exact .whole _
    · rw [h]; exact .none
    · rw [h]; exact .none

theorem cloud_notTiny {l : Layer} {c : Cloud} (h : CloudSays l c) : NotTiny c.height := by
  cases hb : l.base.hundredsOfFeet with
  | none => rw [(h.noHeight hb).1]; exact .none
  | some k =>
    rcases Nat.eq_zero_or_pos k with rfl | hk
    · rw [h.ground hb]; exact .whole 0
    · obtain ⟨x, f, hx, -, ⟨h1, h2⟩, -⟩ := h.height k hb
      rw [hx]
      intro y hy
      cases hy
      have hk1 : (1 : Rat) ≤ k := natCast_le hk
      right
      simp only
      grind

theorem press_notTiny {g : PressGroup} {x : MetarPressure} (h : PressSays g x) : NotTiny x.value := by
  cases hn : g.number with
  | none => rw [h.missing hn]; exact .none
  | some ds =>
    rcases Nat.eq_zero_or_pos (digitsVal ds) with h0 | h0
    · rw [h.zero ds hn h0]; exact .whole 0
    · have h1 : (1 : Rat) ≤ digitsVal ds := natCast_le h0
      by_cases hi : g.Inches
      · obtain ⟨v, hv, a, b⟩ := h.inches ds hn hi
        rw [hv]
        intro y hy
        cases hy
        right
        simp only
        grind
      · unfold PressGroup.Inches at hi
        have hins : g.ins = false := by
          cases e : g.ins
          · rfl
          · exact absurd (.inr e) hi
        cases hl : g.letters with
        | none =>
          have hb : g.Bare := ⟨hl, hins⟩
          by_cases hlow : digitsVal ds ≤ 2500
          · rw [h.bareLow ds hn hb hlow]
            exact .whole _
          · obtain ⟨v, hv, a, b⟩ := h.bareHigh ds hn hb (by omega)
            rw [hv]
            intro y hy
            cases hy
            right
            simp only
            grind
        | some l =>
          have hh : g.Hecto := by
            refine ⟨?_, hins⟩
            cases l with
            | A => exact absurd (.inl hl) hi
            | Q => exact .inl hl
            | QNH => exact .inr hl
          rw [h.hecto ds hn hh]
          exact .whole _

theorem rangeValue_notTiny {v : RangeValue} {feet : Bool} {x : Option F64} (h : v.SaysMetres feet x) : NotTiny x := by
  unfold RangeValue.SaysMetres at h
  split at h
  · obtain ⟨y, rfl, hr⟩ := h
    refine .rel hr (by decide +kernel) ?_
    rcases Nat.eq_zero_or_pos (digitsVal v.digits) with h0 | h0
    · left; rw [h0]; decide +kernel
    · right
      have : (1 : Rat) ≤ digitsVal v.digits := natCast_le h0
      grind
  · rw [h]
    exact .whole _

theorem range_notTiny {g : RangeGroup} {x : RunwayRange} (h : RangeSays g x) :
    NotTiny x.low ∧ NotTiny x.high := by
  refine ⟨rangeValue_notTiny h.low, ?_⟩
  cases hh : g.high with
  | none => rw [h.noHigh hh]; exact .none
  | some v => exact rangeValue_notTiny (h.high v hh)

theorem sea_notTiny {g : SeaGroup} {x : SeaState} (h : seaGrammar.Says g x) : NotTiny x.height := by
  obtain ⟨-, h1, -, h2⟩ := h
  rw [h2]
  cases hv : g.value with
  | state d => exact .none
  | height ds =>
    intro y hy
    cases hy
    simp only
    rcases Nat.eq_zero_or_pos (digitsVal ds) with h0 | h0
    · left
      rw [h0]
      decide +kernel
    · right
      have : (1 : Rat) ≤ digitsVal ds := natCast_le h0
      have m := rnd_mono (p := 1 / 10) (q := (digitsVal ds : Rat) / 10) (by
        have e : (digitsVal ds : Rat) / 10 = digitsVal ds * (1 / 10) := by grind
        rw [e]; grind)
      have c : 1 / 20 ≤ rnd (1 / 10) := by decide +kernel
      grind

/-- Whole degrees Celsius in the four scales. -/
theorem signed_ordinary {neg : Bool} {n : Nat} (h : n ≤ 99) :
    Ordinary (signed neg n) ∧ Ordinary (Conv.celsius_to_kelvin (signed neg n)) ∧
    Ordinary (Conv.celsius_to_fahrenheit (signed neg n)) ∧ Ordinary (Conv.celsius_to_rankine (signed neg n)) := by
  have all : ∀ neg : Bool, ∀ n : Fin 100, ∀ x ∈ [signed neg n.val, Conv.celsius_to_kelvin (signed neg n.val),
      Conv.celsius_to_fahrenheit (signed neg n.val), Conv.celsius_to_rankine (signed neg n.val)],
      (rnd x.val = x.val ∧ (x.nz = true → x.val = 0)) ∧ (x.val = 0 ∨ (1 / 100000 ≤ x.val ∧ x.val ≤ 100000000) ∨
        (1 / 100000 ≤ -x.val ∧ -x.val ≤ 100000000)) := by decide +kernel
  have := all neg ⟨n, by omega⟩
  have k : ∀ x ∈ [signed neg n, Conv.celsius_to_kelvin (signed neg n),
      Conv.celsius_to_fahrenheit (signed neg n), Conv.celsius_to_rankine (signed neg n)], Ordinary x :=
    fun x hx => ordinary_of_rnd (this x hx).1 (this x hx).2
  exact ⟨k _ (by simp), k _ (by simp), k _ (by simp), k _ (by simp)⟩

/-! ### The values are doubles -/

theorem wind_double {m : Match} {w : MetarWind} (h : MetarWind.new m = .ok w) :
    IsDouble w.direction.value ∧ IsDouble w.speed ∧ IsDouble w.gust := by
  unfold MetarWind.new at h
  obtain ⟨d, hd, h⟩ := bind_ok.1 h
  obtain ⟨s, hsp, h⟩ := bind_ok.1 h
  obtain ⟨g, hg, h⟩ := bind_ok.1 h
  cases pure_ok.1 h
  exact ⟨direction_double hd, speed_double hsp, speed_double hg⟩

theorem variation_double {m : Match} {w : WindVariation} (h : WindVariation.new m = .ok w) :
    IsDouble w.from_.value ∧ IsDouble w.to.value := by
  unfold WindVariation.new at h
  obtain ⟨a, ha, h⟩ := bind_ok.1 h
  obtain ⟨b, hb, h⟩ := bind_ok.1 h
  cases pure_ok.1 h
  exact ⟨direction_double ha, direction_double hb⟩

theorem prevailing_double {m : Match} {v : Visibility} (h : prevailing m = .ok v) :
    IsDouble v.vis ∧ IsDouble v.direction.value := by
  unfold prevailing at h
  obtain ⟨a, ha, h⟩ := bind_ok.1 h
  obtain ⟨d, hd, h⟩ := bind_ok.1 h
  split at h
  · cases pure_ok.1 h
    exact ⟨distance_double (some py!"9999"), visDirection_double hd⟩
  · cases pure_ok.1 h
    exact ⟨prevailingSize_double ha, visDirection_double hd⟩

theorem minimum_double {m : Match} {v : Visibility} (h : minimumVisibility m = .ok v) :
    IsDouble v.vis ∧ IsDouble v.direction.value := by
  unfold minimumVisibility at h
  obtain ⟨d, hd, h⟩ := bind_ok.1 h
  cases pure_ok.1 h
  refine ⟨?_, visDirection_double hd⟩
  simp only
  split <;> exact distance_double _

theorem range_double {m : Match} {r : RunwayRange} (h : RunwayRange.new m = .ok r) :
    IsDouble r.low ∧ IsDouble r.high := by
  unfold RunwayRange.new at h
  obtain ⟨a, ha, h⟩ := bind_ok.1 h
  obtain ⟨b, hb, h⟩ := bind_ok.1 h
  cases pure_ok.1 h
  exact ⟨setRange_double ha, setRange_double hb⟩

theorem cloud_double {m : Match} {x : Cloud} (h : Cloud.fromMetar m = .ok x) : IsDouble x.height := by
  obtain ⟨a, ha⟩ : ∃ a, x.height = distance (some a) := by
    unfold Cloud.fromMetar at h
    simp only at h
    split at h
    · exact ⟨_, by rw [← pure_ok.1 h]⟩
    · split at h
      · exact ⟨_, by rw [← pure_ok.1 h]⟩
      · obtain ⟨y, -, h⟩ := bind_ok.1 h
        exact ⟨_, by rw [← pure_ok.1 h]⟩
  rw [ha]
  exact distance_double _

theorem metarPressure_double {m : Match} {p : MetarPressure} (h : MetarPressure.new m = .ok p) : IsDouble p.value := by
  obtain ⟨a, ha⟩ : ∃ a, p.value = pressure a := by
    unfold MetarPressure.new at h
    simp only at h
    split at h
    · exact ⟨_, by rw [← pure_ok.1 h]⟩
    · obtain ⟨y, -, h⟩ := bind_ok.1 h
      exact ⟨_, by rw [← pure_ok.1 h]⟩
  rw [ha]
  exact pressure_double _

theorem sea_double {m : Match} {s : SeaState} (h : SeaState.new m = .ok s) : IsDouble s.height := by
  unfold SeaState.new at h
  obtain ⟨a, ha, h⟩ := bind_ok.1 h
  cases pure_ok.1 h
  simp only
  split <;> exact distance_double _

/-! ### The lists of numbers -/

theorem Kept.none : Kept none := ⟨.none, .none, .none⟩

theorem Spec.Between.wide {lo hi : Rat} {v : Option F64} (h : Between lo hi v) (h1 : 0 ≤ lo) (h2 : hi ≤ 400000) :
    Between 0 400000 v := by
  intro x hx
  have := h x hx
  grind

/-- Whole degrees Celsius from -99 to 99. -/
def WholeDegrees (v : Option F64) : Prop := ∀ x, v = some x → ∃ neg n, n ≤ 99 ∧ x = signed neg n

theorem WholeDegrees.ordinary {v : Option F64} (h : WholeDegrees v) {x : F64}
    (hx : some x ∈ [v, inKelvin v, inFahrenheit v, inRankine v]) : Ordinary x := by
  cases v with
  | none => simp [inKelvin, inFahrenheit, inRankine, convertedBy] at hx
  | some y =>
    obtain ⟨neg, n, hn, rfl⟩ := h y rfl
    obtain ⟨h1, h2, h3, h4⟩ := signed_ordinary (neg := neg) hn
    simp only [inKelvin, inFahrenheit, inRankine, convertedBy, Option.map_some, List.mem_cons, Option.some.injEq,
      List.not_mem_nil, or_false] at hx
    rcases hx with rfl | rfl | rfl | rfl
    · exact h1
    · exact h2
    · exact h3
    · exact h4

theorem WholeDegrees.none : WholeDegrees none := fun x h => by cases h

theorem WholeDegrees.part {t : TempPart} (h : t.number.WF) : WholeDegrees t.degrees := by
  unfold TempPart.degrees
  cases hn : t.number with
  | digits ds =>
    rw [hn] at h
    intro x hx
    cases hx
    exact ⟨_, _, two_digits h.1, rfl⟩
  | slashes => exact .none
  | letterX => exact .none
  | letterM => exact .none

/-- The numbers of a report, a trend or a change are kept ones. -/
structure KeptCore (c : Core) : Prop where
  direction : Kept c.wind.direction.value
  speed : Kept c.wind.speed
  gust : Kept c.wind.gust
  visibility : Kept c.prevailing.vis
  towards : Kept c.prevailing.direction.value
  clouds : ∀ x ∈ c.clouds.list, Kept x.height

theorem Kept.direction {v : Option F64} (h : Kept v) {x : F64}
    (hx : some x ∈ [v, Verif.converted v Conv.DEGREES_TO_RADIANS, Verif.converted v Conv.DEGREES_TO_GRADIANS]) : Ordinary x := by
  simp only [List.mem_cons, List.not_mem_nil, or_false] at hx
  rcases hx with hx | hx | hx
  · exact h.ordinary hx.symm
  all_goals exact h.converted (by decide +kernel) (by decide +kernel) hx.symm

theorem Kept.speed {v : Option F64} (h : Kept v) {x : F64} (hx : some x ∈ [v, inMps v, inKph v, inMiph v]) : Ordinary x := by
  simp only [List.mem_cons, List.not_mem_nil, or_false, inMps, inKph, inMiph] at hx
  rcases hx with hx | hx | hx | hx
  · exact h.ordinary hx.symm
  all_goals exact h.converted (by decide +kernel) (by decide +kernel) hx.symm

theorem Kept.distance {v : Option F64} (h : Kept v) {x : F64}
    (hx : some x ∈ [v, inKilometers v, inSeaMiles v, inFeet v]) : Ordinary x := by
  simp only [List.mem_cons, List.not_mem_nil, or_false, inKilometers, inSeaMiles, inFeet] at hx
  rcases hx with hx | hx | hx | hx
  · exact h.ordinary hx.symm
  all_goals exact h.converted (by decide +kernel) (by decide +kernel) hx.symm

theorem Kept.pressure {v : Option F64} (h : Kept v) {x : F64}
    (hx : some x ∈ [v, inInHg v, inMbar v, inBar v, inAtm v]) : Ordinary x := by
  simp only [List.mem_cons, List.not_mem_nil, or_false, inInHg, inMbar, inBar, inAtm] at hx
  rcases hx with hx | hx | hx | hx | hx
  · exact h.ordinary hx.symm
  all_goals exact h.converted (by decide +kernel) (by decide +kernel) hx.symm

theorem Kept.waves {v : Option F64} (h : Kept v) {x : F64}
    (hx : some x ∈ [v, Verif.converted v Conv.M_TO_CM, Verif.converted v Conv.M_TO_DM, Verif.converted v Conv.M_TO_FT, Verif.converted v Conv.M_TO_IN]) :
    Ordinary x := by
  simp only [List.mem_cons, List.not_mem_nil, or_false] at hx
  rcases hx with hx | hx | hx | hx | hx
  · exact h.ordinary hx.symm
  all_goals exact h.converted (by decide +kernel) (by decide +kernel) hx.symm

theorem mem_windNumbers {w : MetarWind} {x : F64} (h : some x ∈ windNumbers w) (h1 : Kept w.direction.value)
    (h2 : Kept w.speed) (h3 : Kept w.gust) : Ordinary x := by
  rcases List.mem_append.1 (show some x ∈ [w.direction.value, Verif.converted w.direction.value Conv.DEGREES_TO_RADIANS,
    Verif.converted w.direction.value Conv.DEGREES_TO_GRADIANS] ++ _ from h) with h | h
  · exact h1.direction h
  · rcases List.mem_append.1 (show some x ∈ [w.speed, inMps w.speed, inKph w.speed, inMiph w.speed] ++ _ from h) with h | h
    · exact h2.speed h
    · exact h3.speed h

theorem mem_visNumbers {v : Visibility} {x : F64} (h : some x ∈ visNumbers v) (h1 : Kept v.vis)
    (h2 : Kept v.direction.value) : Ordinary x := by
  rcases List.mem_append.1 (show some x ∈ [v.vis, inKilometers v.vis, inSeaMiles v.vis, inFeet v.vis] ++ _ from h) with h | h
  · exact h1.distance h
  · exact h2.direction h

theorem mem_coreNumbers {c : Core} {x : F64} (h : some x ∈ coreNumbers c) (hc : KeptCore c) : Ordinary x := by
  rcases List.mem_append.1 h with h | h
  · rcases List.mem_append.1 h with h | h
    · exact mem_windNumbers h hc.direction hc.speed hc.gust
    · exact mem_visNumbers h hc.visibility hc.towards
  · obtain ⟨y, hy, h⟩ := List.mem_flatMap.1 h
    exact (hc.clouds y hy).distance h

theorem mem_variationNumbers {w : WindVariation} {x : F64} (h : some x ∈ variationNumbers w) (h1 : Kept w.from_.value)
    (h2 : Kept w.to.value) : Ordinary x := by
  rcases List.mem_append.1 (show some x ∈ [w.from_.value, Verif.converted w.from_.value Conv.DEGREES_TO_RADIANS,
    Verif.converted w.from_.value Conv.DEGREES_TO_GRADIANS] ++ _ from h) with h | h
  · exact h1.direction h
  · exact h2.direction h

theorem mem_rangeNumbers {r : RunwayRange} {x : F64} (h : some x ∈ rangeNumbers r) (h1 : Kept r.low)
    (h2 : Kept r.high) : Ordinary x := by
  rcases List.mem_append.1 (show some x ∈ [r.low, inKilometers r.low, inSeaMiles r.low, inFeet r.low] ++ _ from h) with h | h
  · exact h1.distance h
  · exact h2.distance h

theorem mem_temperatureNumbers {t : Temperatures} {x : F64} (h : some x ∈ temperatureNumbers t)
    (h1 : WholeDegrees t.temperature) (h2 : WholeDegrees t.dewpoint) : Ordinary x := by
  rcases List.mem_append.1 (show some x ∈ [t.temperature, inKelvin t.temperature, inFahrenheit t.temperature,
    inRankine t.temperature] ++ _ from h) with h | h
  · exact h1.ordinary h
  · exact h2.ordinary h

theorem mem_seaNumbers {s : SeaState} {x : F64} (h : some x ∈ seaNumbers s)
    (h1 : WholeDegrees s.temperature) (h2 : Kept s.height) : Ordinary x := by
  rcases List.mem_append.1 (show some x ∈ [s.temperature, inKelvin s.temperature, inFahrenheit s.temperature,
    inRankine s.temperature] ++ _ from h) with h | h
  · exact h1.ordinary h
  · exact h2.waves h

theorem Spec.Ordinary.double {x : F64} (h : Ordinary x) : Double x := by
  refine ⟨?_, h.zero⟩
  have hr := inRange_of (by decide +kernel) (by decide +kernel) h.size
  refine ((rounded_iff hr).1 ⟨h.format, fun z _ => ?_, fun z _ hne he => ?_⟩).symm
  · rw [distance_self]
    unfold Spec.distance; grind
  · exfalso
    rw [distance_self] at he
    unfold Spec.distance at he
    grind

theorem Spec.Ordinary.moderate {x : F64} (h : Ordinary x) : Moderate x := by
  have c1 : (1 : Rat) / 10 ^ 100 ≤ 1 / 100000 := by decide +kernel
  have c2 : (100000000 : Rat) ≤ 10 ^ 100 := by decide +kernel
  have := h.size
  unfold Moderate
  generalize (1 / 10 ^ 100 : Rat) = u at *
  generalize ((10 : Rat) ^ 100) = v at *
  grind

end Verif
