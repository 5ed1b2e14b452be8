import Verif.Lemmas.Temperatures
import Verif.Lemmas.Clouds

/-
Decoding of pressure groups.
-/

namespace Verif
open Spec

/-! ### The numbers -/

/-- A whole number written with ten decimals and read back. -/
theorem floatOf_fmtF_whole (n : Nat) (h : n < 2 ^ 53) : floatOf (fmtF 10 (whole n)) = some (whole n) := by
  have hn : (0 : Rat) ≤ n := Rat.natCast_nonneg
  rw [floatOf_fmtF 10 (by omega) (whole n) (F64.sgn_false hn)]
  have e : (mkRat (rhe ((whole n).val.num.natAbs * 10 ^ 10) (whole n).val.den : Nat) (10 ^ 10) : Rat) = n := by
    have h1 : (whole n).val.num.natAbs = n := by simp [whole]
    have h2 : (whole n).val.den = 1 := by simp [whole]
    rw [h1, h2]
    have h3 : rhe (n * 10 ^ 10) 1 = n * 10 ^ 10 := by
      have := rhe_exact (n * 10 ^ 10) 1 (by omega)
      rwa [Nat.mul_one] at this
    rw [h3]
    rw [Rat.mkRat_eq_div]
    have : ((10 ^ 10 : Nat) : Rat) = 10000000000 := by decide +kernel
    have h4 : (((n * 10 ^ 10 : Nat) : Int) : Rat) = (n : Rat) * 10000000000 := by
      rw [← this, Rat.intCast_natCast]
      simp
    rw [h4, this, Rat.div_def]
    have : (10000000000 : Rat) * (10000000000 : Rat)⁻¹ = 1 := by decide +kernel
    grind
  rw [e]
  simp [F64.mk', rnd_natCast n h, whole]

theorem MBAR_one : Conv.MBAR_TO_HPA = F64.ofNat 1 := by decide +kernel

theorem mul_one_whole (n : Nat) (h : n < 2 ^ 53) : (whole n).mul (F64.ofNat 1) = whole n := by
  have hn : (0 : Rat) ≤ n := Rat.natCast_nonneg
  have e1 : F64.ofNat 1 = ⟨1, false⟩ := by decide +kernel
  rw [e1, whole, F64.mul_pos_val (F64.sgn_false hn) (by decide +kernel)]
  simp only [Rat.mul_one]
  rw [rnd_natCast n h]

theorem INHG_within : Within (1 / 10 ^ 14) Conv.INHG_TO_HPA.val (100000 / 2953) := by
  constructor <;> decide +kernel

theorem INHG_sgn : Conv.INHG_TO_HPA.sgn = false := by decide +kernel

/-- Inches into hectopascals through the text with ten decimals. -/
theorem inches_text {r : Rat} (r0 : 0 ≤ r) (r1 : r ≤ 9999) :
    ∃ v : Rat, floatOf (fmtF 10 ((⟨r, false⟩ : F64).mul Conv.INHG_TO_HPA)) = some ⟨v, false⟩ ∧
      Within (3 / 10 ^ 10) v (r * (100000 / 2953)) := by
  rw [F64.mul_pos_val (F64.sgn_false r0) INHG_sgn]
  simp only
  have w1 := INHG_within.mul_left r r0
  have hF0 : 0 ≤ Conv.INHG_TO_HPA.val := by decide +kernel
  generalize Conv.INHG_TO_HPA.val = F at *
  obtain ⟨w1a, w1b⟩ := w1
  have p14 : (1 : Rat) / 10 ^ 14 = 1 / 100000000000000 := by decide +kernel
  have p10 : (1 : Rat) / (2 * 10 ^ 10) = 1 / 20000000000 := by decide +kernel
  have p310 : (3 : Rat) / 10 ^ 10 = 3 / 10000000000 := by decide +kernel
  have pu : ulp ≤ 1 / 9000000000000000 := by decide +kernel
  rw [p14] at w1a w1b
  have b1 : 0 ≤ r * F := Rat.mul_nonneg r0 hF0
  have b2 : r * F ≤ 338605 := by grind
  have w2 := rnd_within b1 b2
  generalize hA : rnd (r * F) = A at *
  have hA0 : 0 ≤ A := by rw [← hA]; exact rnd_nonneg _ b1
  rw [floatOf_fmtF 10 (by omega) ⟨A, false⟩ (F64.sgn_false hA0)]
  have w3 := fixed_within 10 A hA0
  simp only
  generalize hB : (mkRat (rhe (A.num.natAbs * 10 ^ 10) A.den : Nat) (10 ^ 10) : Rat) = B at *
  have hB0 : 0 ≤ B := by rw [← hB]; exact mkRat_nat_nonneg _ _
  obtain ⟨w2a, w2b⟩ := w2
  rw [p10] at w3
  obtain ⟨w3a, w3b⟩ := w3
  have b3 : B ≤ 338606 := by grind
  have w4 := rnd_within hB0 b3
  rw [F64.mk'_false]
  refine ⟨_, rfl, ?_⟩
  generalize hC : rnd B = C at *
  obtain ⟨w4a, w4b⟩ := w4
  rw [p310]
  constructor <;> grind

/-- Hundredths of inches. -/
theorem hundredths_text {n : Nat} (h : n ≤ 9999) :
    ∃ v : Rat, floatOf (fmtF 10 (((whole n).div (F64.ofNat 100)).mul Conv.INHG_TO_HPA)) = some ⟨v, false⟩ ∧
      Within (1 / 10 ^ 9) v (n / 100 / (2953 / 100000)) := by
  have h0 : (0 : Rat) ≤ n := Rat.natCast_nonneg
  have h1 : (n : Rat) ≤ 9999 := by
    have := (Rat.natCast_le_natCast).2 h
    simpa using this
  have e100 : F64.ofNat 100 = ⟨100, false⟩ := by decide +kernel
  have hd : (whole n).div (F64.ofNat 100) = ⟨rnd (n / 100), false⟩ := by
    have s1 : (whole n).sgn = false := F64.sgn_false h0
    have s2 : (⟨100, false⟩ : F64).sgn = false := by decide +kernel
    unfold F64.div
    rw [e100, s1, s2]
    exact F64.mk'_false _
  rw [hd]
  have i100 : (100 : Rat)⁻¹ = 1 / 100 := by decide +kernel
  have i2953 : (2953 / 100000 : Rat)⁻¹ = 100000 / 2953 := by decide +kernel
  have b0 : (0 : Rat) ≤ n / 100 := by rw [Rat.div_def, i100]; grind
  have b1 : (n : Rat) / 100 ≤ 100 := by rw [Rat.div_def, i100]; grind
  have w1 := rnd_within b0 b1
  have r0 := rnd_nonneg _ b0
  rw [Rat.div_def (n / 100), i2953]
  generalize (n : Rat) / 100 = q at *
  generalize rnd q = r at *
  obtain ⟨w1a, w1b⟩ := w1
  have pu : ulp ≤ 1 / 9000000000000000 := by decide +kernel
  obtain ⟨v, e, w⟩ := inches_text r0 (by grind)
  refine ⟨v, e, ?_⟩
  have p310 : (3 : Rat) / 10 ^ 10 = 3 / 10000000000 := by decide +kernel
  have p9 : (1 : Rat) / 10 ^ 9 = 1 / 1000000000 := by decide +kernel
  rw [p310] at w
  rw [p9]
  obtain ⟨wa, wb⟩ := w
  constructor <;> grind

/-- Whole inches. -/
theorem wholeInches_text {n : Nat} (h : n ≤ 9999) :
    ∃ v : Rat, floatOf (fmtF 10 ((whole n).mul Conv.INHG_TO_HPA)) = some ⟨v, false⟩ ∧
      Within (1 / 10 ^ 9) v (n / (2953 / 100000)) := by
  have h0 : (0 : Rat) ≤ n := Rat.natCast_nonneg
  have h1 : (n : Rat) ≤ 9999 := by
    have := (Rat.natCast_le_natCast).2 h
    simpa using this
  have i2953 : (2953 / 100000 : Rat)⁻¹ = 100000 / 2953 := by decide +kernel
  obtain ⟨v, e, w⟩ := inches_text h0 h1
  refine ⟨v, e, ?_⟩
  rw [Rat.div_def (n : Rat), i2953]
  exact w.mono (by decide +kernel)

/-! ### Pressure groups -/

theorem letters_slot (l : Option PressLetters) :
    (Slot.opt [py!"A", py!"Q", py!"QNH"] .units).Has (lettersText l) (optCap .units l) := by
  rw [Slot.opt_has]
  rcases l with _ | (_ | _ | _)
  · exact .inr ⟨rfl, rfl⟩
  all_goals exact .inl ⟨by decide, rfl⟩

theorem letters_slot_inv {t : PyStr} {o : Option Cap}
    (h : (Slot.opt [py!"A", py!"Q", py!"QNH"] .units).Has t o) : ∃ l, t = lettersText l := by
  rw [Slot.opt_has] at h
  rcases h with ⟨h, -⟩ | ⟨rfl, -⟩
  · simp only [List.mem_cons, List.not_mem_nil, or_false] at h
    rcases h with rfl | rfl | rfl
    · exact ⟨some .A, rfl⟩
    · exact ⟨some .Q, rfl⟩
    · exact ⟨some .QNH, rfl⟩
  · exact ⟨none, rfl⟩

theorem pressNumber_slot {o : Option PyStr}
    (h : ∀ ds, o = some ds → ds.length = 4 ∧ ∀ c ∈ ds, isDigit c = true) :
    (Slot.digits [4] [py!"////"] .press).Has (pressNumberText o) (some .press) := by
  rw [Slot.digits_has]
  refine ⟨?_, rfl⟩
  cases o with
  | none => exact .inr (by decide)
  | some ds => exact .inl ⟨by simp [pressNumberText, (h ds rfl).1], (h ds rfl).2⟩

theorem pressNumber_slot_inv {t : PyStr} {o : Option Cap}
    (h : (Slot.digits [4] [py!"////"] .press).Has t o) :
    ∃ n : Option PyStr, (∀ ds, n = some ds → ds.length = 4 ∧ ∀ c ∈ ds, isDigit c = true) ∧
      t = pressNumberText n := by
  rw [Slot.digits_has] at h
  rcases h with ⟨⟨h1, h2⟩ | h, -⟩
  · exact ⟨some t, fun ds e => by cases e; exact ⟨by simpa using h1, h2⟩, rfl⟩
  · simp only [List.mem_cons, List.not_mem_nil, or_false] at h
    exact ⟨none, (by intro ds e; cases e), h⟩

theorem ins_slot (b : Bool) :
    (Slot.opt [py!"INS"] .units2).Has (if b then py!"INS" else []) (if b then some .units2 else none) := by
  rw [Slot.opt_has]
  cases b
  · exact .inr ⟨rfl, rfl⟩
  · exact .inl ⟨by decide, rfl⟩

theorem ins_slot_inv {t : PyStr} {o : Option Cap} (h : (Slot.opt [py!"INS"] .units2).Has t o) :
    ∃ b : Bool, t = if b then py!"INS" else [] := by
  rw [Slot.opt_has] at h
  rcases h with ⟨h, -⟩ | ⟨rfl, -⟩
  · simp only [List.mem_cons, List.not_mem_nil, or_false] at h
    exact ⟨true, h⟩
  · exact ⟨false, rfl⟩

/-- The hectopascals of the library. -/
def pressText (g : PressGroup) (p : F64) : F64 :=
  if g.letters.map PressLetters.text = some py!"A" ∨ (if g.ins then some py!"INS" else none) = some py!"INS" then
    (p.div (F64.ofNat 100)).mul Conv.INHG_TO_HPA
  else if g.letters.map PressLetters.text = some py!"Q" ∨
      g.letters.map PressLetters.text = some py!"QNH" then p.mul (F64.ofNat 1)
  else if (F64.ofNat 2500).lt p then p.mul Conv.INHG_TO_HPA
  else p.mul Conv.MBAR_TO_HPA

theorem pressText_inches {g : PressGroup} (h : g.Inches) (p : F64) :
    pressText g p = (p.div (F64.ofNat 100)).mul Conv.INHG_TO_HPA := by
  unfold pressText
  rw [if_pos]
  rcases h with h | h
  · exact .inl (by rw [h]; rfl)
  · exact .inr (by rw [h]; rfl)

theorem pressText_hecto {g : PressGroup} (h : g.Hecto) (p : F64) :
    pressText g p = p.mul (F64.ofNat 1) := by
  unfold pressText
  obtain ⟨h1, h2⟩ := h
  rw [h2]
  rcases h1 with h1 | h1 <;> rw [h1] <;> rfl

theorem pressText_bare {g : PressGroup} (h : g.Bare) (p : F64) :
    pressText g p =
      if (F64.ofNat 2500).lt p then p.mul Conv.INHG_TO_HPA else p.mul Conv.MBAR_TO_HPA := by
  unfold pressText
  obtain ⟨h1, h2⟩ := h
  rw [h2, h1]
  rfl

theorem lt_2500 (n : Nat) : (F64.ofNat 2500).lt (whole n) = decide (2500 < n) := by
  have : F64.ofNat 2500 = ⟨2500, false⟩ := by decide +kernel
  unfold F64.lt
  rw [this]
  apply decide_eq_decide.2
  exact Rat.natCast_lt_natCast (a := 2500)

theorem press_says (g : PressGroup) (h : g.WF) (code : Option PyStr) (hcode : code = some (shown g.text))
    (x : MetarPressure)
    (hx : x = ⟨code, match g.number with
      | none => none
      | some ds => floatOf (fmtF 10 (pressText g (whole (digitsVal ds))))⟩) : PressSays g x := by
  subst hx hcode
  have hb : ∀ ds, g.number = some ds → digitsVal ds ≤ 9999 := by
    intro ds e
    have := digitsVal_lt ds
    rw [(h ds e).1] at this
    omega
  constructor
  · rfl
  · intro e
    simp only [e]
  · intro ds e hi
    simp only [e]
    rw [pressText_inches hi]
    exact hundredths_text (hb ds e)
  · intro ds e h0
    simp only [e, h0]
    unfold pressText
    repeat' split
    all_goals decide +kernel
  · intro ds e hi
    simp only [e]
    rw [pressText_hecto hi, mul_one_whole _ (by have := hb ds e; omega),
      floatOf_fmtF_whole _ (by have := hb ds e; omega)]
  · intro ds e hi hl
    simp only [e]
    rw [pressText_bare hi, lt_2500, if_neg (by simpa using hl), MBAR_one,
      mul_one_whole _ (by have := hb ds e; omega), floatOf_fmtF_whole _ (by have := hb ds e; omega)]
  · intro ds e hi hl
    simp only [e]
    rw [pressText_bare hi, lt_2500, if_pos (by simpa using hl)]
    exact wholeInches_text (hb ds e)

theorem press_reads : Spec.Reads pressGrammar MetarRegExp.PRESSURE MetarPressure.new := by
  constructor
  · intro g hg
    have hc : Chosen pressSlots
        [lettersText g.letters, pressNumberText g.number, if g.ins then py!"INS" else []]
        [optCap .units g.letters, some .press, if g.ins then some .units2 else none] :=
      .cons (letters_slot _) (.cons (pressNumber_slot hg) (.cons (ins_slot _) .nil))
    obtain ⟨m, h1, h2, ⟨g1, g2, g3, -⟩, -⟩ :=
      RE.alt_match press_table (p := (pressSlots, [])) (by simp) hc
    have e : g.text = List.flatten [lettersText g.letters, pressNumberText g.number,
        if g.ins then py!"INS" else []] := by
      simp [PressGroup.text]
    have t1 := g1 .units (by simp [Slot.opt])
    have t2 := g2 .press (by simp [Slot.digits])
    have t3 := g3 .units2 (by simp [Slot.opt])
    have e1 : (if optCap .units g.letters = some .units then some (lettersText g.letters) else none) =
        g.letters.map PressLetters.text := by
      rcases g.letters with _ | (_ | _ | _) <;> simp [optCap, lettersText]
    have e3 : (if (if g.ins then some Cap.units2 else none) = some .units2 then
        some (if g.ins then py!"INS" else []) else none) = if g.ins then some py!"INS" else none := by
      cases g.ins <;> simp
    rw [e1] at t1
    rw [if_pos rfl] at t2
    rw [e3] at t3
    refine ⟨m, _, (show MetarRegExp.PRESSURE.match g.text = _ by rw [e]; exact h1), ?_,
      press_says g hg _ rfl _ rfl⟩
    unfold MetarPressure.new
    rw [t1, t2, t3, h2, ← e]
    simp only [groupCode, shown_eq]
    rcases hn : g.number with _ | ds
    · rfl
    · obtain ⟨hl, hd⟩ := hg ds hn
      have hs : ds ≠ py!"////" := by
        rintro rfl
        exact digits_no_slash hd (by simp)
      have hne : ds ≠ [] := by rintro rfl; simp at hl
      simp only [pressNumberText, Option.some.injEq, hs, if_false, pyFloat,
        floatOf_digits_exact hne hd (by omega)]
      rfl
  · intro s m hm hn
    obtain ⟨p, hp, ts, os, hc, rfl⟩ := RE.alt_only press_table hm hn
    simp only [List.mem_singleton] at hp
    subst hp
    obtain ⟨t1, _, o1, _, rfl, rfl, h1, hc⟩ := hc.cons_inv
    obtain ⟨t2, _, o2, _, rfl, rfl, h2, hc⟩ := hc.cons_inv
    obtain ⟨t3, _, o3, _, rfl, rfl, h3, hc⟩ := hc.cons_inv
    obtain ⟨rfl, rfl⟩ := hc.nil_inv
    obtain ⟨l, rfl⟩ := letters_slot_inv h1
    obtain ⟨n, w, rfl⟩ := pressNumber_slot_inv h2
    obtain ⟨b, rfl⟩ := ins_slot_inv h3
    exact ⟨⟨l, n, b⟩, w, by simp [pressGrammar, PressGroup.text]⟩

end Verif
