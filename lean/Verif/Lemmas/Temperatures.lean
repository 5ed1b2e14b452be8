import Verif.Model.MetarGroups
import Verif.Lemmas.SmallForms
import Verif.Lemmas.GroupOk
import Verif.Lemmas.Weather
import Verif.Spec.Temperatures

/-
Decoding of temperature and pressure groups.
-/

namespace Verif
open Spec

/-! ### The numbers -/

theorem digits_no_dash {ds : PyStr} (h : Digits ds) : 45 ∉ ds := h.ne (by decide)
theorem digits_no_slash {ds : PyStr} (h : Digits ds) : 47 ∉ ds := h.ne (by decide)

theorem rnd_signed (neg : Bool) (n : Nat) (h : n < 2 ^ 53) :
    rnd (if neg then -(n : Rat) else n) = if neg then -(n : Rat) else n := by
  cases neg with
  | false => exact rnd_natCast n h
  | true =>
    simp only [if_true]
    rw [rnd_neg, rnd_natCast n h]

theorem signed_div_ten (neg : Bool) (n : Nat) (h : n < 2 ^ 49) :
    (F64.mk' (if neg then -((10 * n : Nat) : Rat) else ((10 * n : Nat) : Rat)) neg).div (F64.ofNat 10) = signed neg n := by
  have h1 := rnd_signed neg (10 * n) (by omega)
  have h2 := rnd_signed neg n (by omega)
  have e10 : F64.ofNat 10 = ⟨10, false⟩ := by decide +kernel
  have hd : (if neg then -((10 * n : Nat) : Rat) else ((10 * n : Nat) : Rat)) / 10 =
      if neg then -(n : Rat) else n := by
    have : ((10 * n : Nat) : Rat) = 10 * n := by simp
    rw [this, Rat.div_def]
    have : (10 : Rat) * (10 : Rat)⁻¹ = 1 := by decide +kernel
    split <;> grind
  unfold F64.div
  rw [e10]
  unfold F64.mk' F64.sgn
  simp only
  rw [h1, hd, h2]
  unfold signed
  cases neg with
  | false =>
    have : ¬ (((10 * n : Nat) : Rat) < 0) := by
      have := Rat.natCast_nonneg (a := 10 * n)
      grind
    have z : ¬ ((10 : Rat) < 0) := by decide
    simp only [Bool.false_eq_true, if_false, this, z]
    simp
  | true =>
    have hz : ((n : Rat) = 0) ↔ n = 0 := by
      constructor
      · intro e
        exact Rat.natCast_inj.1 (by simpa using e)
      · rintro rfl; rfl
    have z : ¬ ((10 : Rat) < 0) := by decide
    by_cases hn : n = 0
    · subst hn; decide +kernel
    · have hp : (0 : Rat) < (n : Rat) := natCast_pos (by omega)
      have : (-(n : Rat)) ≠ 0 := by grind
      simp [hn, this]

/-- Two digits. -/
theorem temperature_pos {ds : PyStr} (hl : ds.length = 2) (hd : Digits ds) :
    temperature (some ds) = .ok (some (signed false (digitsVal ds))) := by
  have hs : ds ≠ py!"//" ∧ ds ≠ py!"///" := by
    constructor <;> rintro rfl <;> exact digits_no_slash hd (by simp)
  have hd0 : Digits (ds ++ py!"0") := hd.append (by intro c hc; simp at hc; subst hc; decide)
  have hn : ds ++ py!"0" ≠ [] := by simp
  have hv : digitsVal (ds ++ py!"0") = 10 * digitsVal ds := by
    rw [digitsVal_append]
    simp only [List.length_cons, List.length_nil, Nat.zero_add, Nat.pow_one]
    rw [show digitsVal py!"0" = 0 by decide]
    omega
  have hlt := digitsVal_lt ds
  rw [hl] at hlt
  unfold temperature
  simp only [hs.1, hs.2, or_self, if_false]
  rw [replace_absent _ _ _ (digits_no_dash hd), if_pos hl,
    replace_absent _ _ _ (digits_no_dash hd0)]
  rw [if_neg (by simp [hl]), floatOf_digits hn hd0, hv]
  have := signed_div_ten false (digitsVal ds) (by omega)
  simp only [Bool.false_eq_true, if_false] at this
  simp only [Option.map_some]
  rw [this]

/-- Two digits after a minus. -/
theorem temperature_neg {ds : PyStr} (hl : ds.length = 2) (hd : Digits ds) :
    temperature (some (py!"-" ++ ds)) = .ok (some (signed true (digitsVal ds))) := by
  have hs : py!"-" ++ ds ≠ py!"//" ∧ py!"-" ++ ds ≠ py!"///" := by
    constructor <;> simp
  have hd0 : Digits (ds ++ py!"0") := hd.append (by intro c hc; simp at hc; subst hc; decide)
  have hn : ds ++ py!"0" ≠ [] := by simp
  have hv : digitsVal (ds ++ py!"0") = 10 * digitsVal ds := by
    rw [digitsVal_append]
    simp only [List.length_cons, List.length_nil, Nat.zero_add, Nat.pow_one]
    rw [show digitsVal py!"0" = 0 by decide]
    omega
  have hlt := digitsVal_lt ds
  rw [hl] at hlt
  have hr : ∀ t : PyStr, 45 ∉ t → replace (py!"-" ++ t) py!"-" [] = t := by
    intro t ht
    rw [replace_char_nil]
    simp only [List.cons_append, List.nil_append, ne_eq, List.filter_cons, decide_not, decide_true,
      Bool.not_true, Bool.false_eq_true, if_false]
    rw [List.filter_eq_self]
    intro a ha
    simp only [Bool.not_eq_true', decide_eq_false_iff_not]
    rintro rfl
    exact ht ha
  unfold temperature
  simp only [hs.1, hs.2, or_self, if_false]
  rw [hr _ (digits_no_dash hd), if_pos hl, List.append_assoc, hr _ (digits_no_dash hd0)]
  rw [if_neg (by simp [hl])]
  have : floatOf (py!"-" ++ (ds ++ py!"0")) =
      some (F64.mk' (-((10 * digitsVal ds : Nat) : Rat)) true) := by
    show (decOf (ds ++ py!"0")).map _ = _
    rw [decOf_digits hn hd0, hv]
    rfl
  rw [this]
  have := signed_div_ten true (digitsVal ds) (by omega)
  simp only [if_true] at this
  simp only [Option.map_some]
  rw [this]

/-- The minus of the library. -/
theorem setTemperature_part (t : TempPart) (h : t.number.WF) (sign : Option PyStr)
    (hs : sign = t.minus.map Minus.text) :
    setTemperature (some t.number.text) sign = .ok t.degrees := by
  unfold TempPart.degrees
  subst hs
  obtain ⟨mi, nu⟩ := t
  simp only at h ⊢
  cases nu with
  | digits ds =>
    obtain ⟨h1, h2⟩ := h
    rcases mi with _ | (_ | _)
    · exact temperature_pos h1 h2
    · exact temperature_neg h1 h2
    · exact temperature_neg h1 h2
  | slashes => rcases mi with _ | (_ | _) <;> rfl
  | letterX => rcases mi with _ | (_ | _) <;> rfl
  | letterM => rcases mi with _ | (_ | _) <;> rfl

/-! ### Temperature groups -/

theorem minus_slot (c : Cap) (o : Option Minus) :
    (Slot.opt [py!"M", py!"-"] c).Has (minusText o) (optCap c o) := by
  rw [Slot.opt_has]
  rcases o with _ | (_ | _)
  · exact .inr ⟨rfl, rfl⟩
  · exact .inl ⟨by decide, rfl⟩
  · exact .inl ⟨by decide, rfl⟩

theorem minus_slot_inv {c : Cap} {t : PyStr} {o : Option Cap}
    (h : (Slot.opt [py!"M", py!"-"] c).Has t o) : ∃ m : Option Minus, t = minusText m := by
  rw [Slot.opt_has] at h
  rcases h with ⟨h, -⟩ | ⟨rfl, -⟩
  · simp only [List.mem_cons, List.not_mem_nil, or_false] at h
    rcases h with rfl | rfl
    · exact ⟨some .letter, rfl⟩
    · exact ⟨some .dash, rfl⟩
  · exact ⟨none, rfl⟩

theorem tempNumber_slot (c : Cap) (n : TempNumber) (h : n.WF) :
    (Slot.digits [2] tempWords c).Has n.text (some c) := by
  rw [Slot.digits_has]
  refine ⟨?_, rfl⟩
  cases n with
  | digits ds => exact .inl ⟨by simp [TempNumber.text, h.1], h.2⟩
  | slashes => exact .inr (by decide)
  | letterX => exact .inr (by decide)
  | letterM => exact .inr (by decide)

theorem tempNumber_slot_inv {c : Cap} {t : PyStr} {o : Option Cap}
    (h : (Slot.digits [2] tempWords c).Has t o) : ∃ n : TempNumber, n.WF ∧ t = n.text := by
  rw [Slot.digits_has] at h
  rcases h with ⟨⟨h1, h2⟩ | h, -⟩
  · exact ⟨.digits t, ⟨by simpa using h1, h2⟩, rfl⟩
  · simp only [tempWords, List.mem_cons, List.not_mem_nil, or_false] at h
    rcases h with rfl | rfl | rfl
    · exact ⟨.slashes, trivial, rfl⟩
    · exact ⟨.letterX, trivial, rfl⟩
    · exact ⟨.letterM, trivial, rfl⟩

theorem minus_group (c : Cap) (o : Option Minus) :
    (if optCap c o = some c then some (minusText o) else none) = o.map Minus.text := by
  rcases o with _ | (_ | _) <;> simp [optCap, minusText]

theorem lit_slot (s : PyStr) : (Slot.lit s).Has s none := Slot.lit_has.2 ⟨rfl, rfl⟩

theorem temp_reads : Spec.Reads tempGrammar MetarRegExp.TEMPERATURES Temperatures.new := by
  constructor
  · intro g ⟨ha, hd⟩
    have hc : Chosen tempSlots
        [minusText g.air.minus, g.air.number.text, py!"/", minusText g.dew.minus, g.dew.number.text]
        [optCap .tsign g.air.minus, some .temp, none, optCap .dsign g.dew.minus, some .dewpt] :=
      .cons (minus_slot _ _) (.cons (tempNumber_slot _ _ ha) (.cons (lit_slot _)
        (.cons (minus_slot _ _) (.cons (tempNumber_slot _ _ hd) .nil))))
    obtain ⟨m, h1, h2, ⟨g1, g2, -, g4, g5, -⟩, -⟩ :=
      RE.alt_match temp_table (p := (tempSlots, [])) (by simp) hc
    have e : g.text = List.flatten [minusText g.air.minus, g.air.number.text, py!"/",
        minusText g.dew.minus, g.dew.number.text] := by
      simp [TempGroup.text, TempPart.text]
    have t1 := g1 .tsign (by simp [Slot.opt])
    have t2 := g2 .temp (by simp [Slot.digits])
    have t4 := g4 .dsign (by simp [Slot.opt])
    have t5 := g5 .dewpt (by simp [Slot.digits])
    rw [minus_group] at t1 t4
    rw [if_pos rfl] at t2 t5
    refine ⟨m, ⟨some (shown g.text), g.air.degrees, g.dew.degrees⟩,
      (show MetarRegExp.TEMPERATURES.match g.text = _ by rw [e]; exact h1), ?_, rfl, rfl, rfl⟩
    unfold Temperatures.new
    rw [t1, t2, t4, t5, setTemperature_part g.air ha _ rfl, setTemperature_part g.dew hd _ rfl, h2, ← e]
    simp only [groupCode, shown_eq]
    rfl
  · intro s m hm hn
    obtain ⟨p, hp, ts, os, hc, rfl⟩ := RE.alt_only temp_table hm hn
    simp only [List.mem_singleton] at hp
    subst hp
    obtain ⟨t1, _, o1, _, rfl, rfl, h1, hc⟩ := hc.cons_inv
    obtain ⟨t2, _, o2, _, rfl, rfl, h2, hc⟩ := hc.cons_inv
    obtain ⟨t3, _, o3, _, rfl, rfl, h3, hc⟩ := hc.cons_inv
    obtain ⟨t4, _, o4, _, rfl, rfl, h4, hc⟩ := hc.cons_inv
    obtain ⟨t5, _, o5, _, rfl, rfl, h5, hc⟩ := hc.cons_inv
    obtain ⟨rfl, rfl⟩ := hc.nil_inv
    obtain ⟨m1, rfl⟩ := minus_slot_inv h1
    obtain ⟨n1, w1, rfl⟩ := tempNumber_slot_inv h2
    obtain ⟨rfl, -⟩ := Slot.lit_has.1 h3
    obtain ⟨m2, rfl⟩ := minus_slot_inv h4
    obtain ⟨n2, w2, rfl⟩ := tempNumber_slot_inv h5
    exact ⟨⟨⟨m1, n1⟩, ⟨m2, n2⟩⟩, ⟨w1, w2⟩, by simp [tempGrammar, TempGroup.text, TempPart.text]⟩

end Verif
