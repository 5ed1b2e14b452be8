import Verif.Lemmas.Runway
import Verif.Lemmas.ReprRead

/-
Decoding of runway range groups.
-/

namespace Verif
open Spec

theorem limit_slot (c : Cap) (o : Option Limit) :
    (Slot.optOne limitMP c).Has (limitText o) (optCap c o) := by
  rw [Slot.optOne_has]
  rcases o with _ | (_ | _)
  · exact .inr ⟨rfl, rfl⟩
  · exact .inl ⟨77, by decide, rfl, rfl⟩
  · exact .inl ⟨80, by decide, rfl, rfl⟩

theorem limit_slot_inv {c : Cap} {t : PyStr} {o : Option Cap} (h : (Slot.optOne limitMP c).Has t o) :
    ∃ l, t = limitText l := by
  rw [Slot.optOne_has] at h
  rcases h with ⟨x, hx, rfl, -⟩ | ⟨rfl, -⟩
  · have : x = 77 ∨ x = 80 := by simp [limitMP, CC.mem, CC.ranges, inRanges] at hx; omega
    rcases this with rfl | rfl
    · exact ⟨some .below, rfl⟩
    · exact ⟨some .above, rfl⟩
  · exact ⟨none, rfl⟩

theorem tendency_slot (c : Cap) (o : Option Tendency) :
    (Slot.optOne tendNDU c).Has (tendencyText o) (optCap c o) := by
  rw [Slot.optOne_has]
  rcases o with _ | (_ | _ | _)
  · exact .inr ⟨rfl, rfl⟩
  · exact .inl ⟨78, by decide, rfl, rfl⟩
  · exact .inl ⟨85, by decide, rfl, rfl⟩
  · exact .inl ⟨68, by decide, rfl, rfl⟩

theorem tendency_slot_inv {c : Cap} {t : PyStr} {o : Option Cap} (h : (Slot.optOne tendNDU c).Has t o) :
    ∃ l, t = tendencyText l := by
  rw [Slot.optOne_has] at h
  rcases h with ⟨x, hx, rfl, -⟩ | ⟨rfl, -⟩
  · have : x = 78 ∨ x = 68 ∨ x = 85 := by simp [tendNDU, CC.mem, CC.ranges, inRanges] at hx; omega
    rcases this with rfl | rfl | rfl
    · exact ⟨some .same, rfl⟩
    · exact ⟨some .down, rfl⟩
    · exact ⟨some .up, rfl⟩
  · exact ⟨none, rfl⟩

/-- An optional fixed word. -/
theorem flag_slot (w : PyStr) (c : Cap) (b : Bool) :
    (Slot.opt [w] c).Has (if b then w else []) (if b then some c else none) := by
  rw [Slot.opt_has]
  cases b
  · exact .inr ⟨rfl, rfl⟩
  · exact .inl ⟨by simp, rfl⟩

theorem flag_slot_inv {w : PyStr} {c : Cap} {t : PyStr} {o : Option Cap}
    (h : (Slot.opt [w] c).Has t o) : ∃ b : Bool, t = if b then w else [] := by
  rw [Slot.opt_has] at h
  rcases h with ⟨h, -⟩ | ⟨rfl, -⟩
  · simp only [List.mem_cons, List.not_mem_nil, or_false] at h
    exact ⟨true, h⟩
  · exact ⟨false, rfl⟩

theorem flag_group (w : PyStr) (c : Cap) (b : Bool) :
    (if (if b then some c else none) = some c then some (if b then w else []) else none) =
      if b then some w else none := by cases b <;> simp

theorem rangeDigits_slot (c : Cap) (v : RangeValue) (h : v.WF) :
    (Slot.digits [2, 3, 4] [] c).Has v.digits (some c) := by
  rw [Slot.digits_has]
  exact ⟨.inl ⟨by simpa using h.1, h.2⟩, rfl⟩

theorem rangeDigits_slot_inv {c : Cap} {t : PyStr} {o : Option Cap}
    (h : (Slot.digits [2, 3, 4] [] c).Has t o) (l : Option Limit) : (RangeValue.mk l t).WF := by
  rw [Slot.digits_has] at h
  rcases h with ⟨⟨h1, h2⟩ | h, -⟩
  · exact ⟨by simpa using h1, h2⟩
  · simp at h

theorem FT_TO_M_rel : Rel (5 / 10 ^ 16) Conv.FT_TO_M.val (3048 / 10000) := by
  refine ⟨?_, ?_, ?_⟩ <;> decide +kernel

theorem setRange_says (v : RangeValue) (h : v.WF) (feet : Bool) :
    ∃ x, setRange (some v.digits) (if feet then some py!"FT" else none) = .ok x ∧
      v.SaysMetres feet x := by
  have hne : v.digits ≠ [] := by
    intro e
    have := h.1
    simp [e] at this
  have hl : v.digits.length ≤ 15 := by have := h.1; omega
  have hf := floatOf_digits_exact hne h.2 hl
  cases feet with
  | false =>
    refine ⟨_, rfl, ?_⟩
    unfold RangeValue.SaysMetres distance
    simp only [Bool.false_eq_true, if_false]
    split
    · decide +kernel
    · exact hf
  | true =>
    refine ⟨some ((whole (digitsVal v.digits)).mul Conv.FT_TO_M), ?_, ?_⟩
    · unfold setRange
      simp only [if_true, pyFloat, hf]
      have h0 : (0 : Rat) ≤ digitsVal v.digits := Rat.natCast_nonneg
      have e := F64.mul_pos_val (a := whole (digitsVal v.digits)) (F64.sgn_false h0) FT_TO_M_sgn
      have hv : digitsVal v.digits ≤ 10000 := by
        have := digitsVal_lt v.digits
        rcases h.1 with e | e | e <;> rw [e] at this <;> omega
      have hw := written_rnd (written_digits hv (c := Conv.FT_TO_M.val) (by decide +kernel) (by decide +kernel))
      show Except.ok (distance (some (floatRepr ((whole (digitsVal v.digits)).mul Conv.FT_TO_M)))) = _
      rw [e]
      exact congrArg Except.ok (distance_repr hw.1 hw.2)
    · have h0 : (0 : Rat) ≤ digitsVal v.digits := Rat.natCast_nonneg
      have e := F64.mul_pos_val (a := whole (digitsVal v.digits)) (F64.sgn_false h0) FT_TO_M_sgn
      rw [e]
      refine ⟨_, rfl, ?_⟩
      exact ((FT_TO_M_rel.mul_left h0).rnd (by decide +kernel)).mono (by decide +kernel)

theorem limit_group (c : Cap) (o : Option Limit) :
    dgetO rvrLimits (if optCap c o = some c then some (limitText o) else none) = o.map Limit.means := by
  rcases o with _ | (_ | _)
  · rfl
  · simp [optCap, limitText]; decide
  · simp [optCap, limitText]; decide

theorem tendency_group (c : Cap) (o : Option Tendency) :
    dgetO rvrTrends (if optCap c o = some c then some (tendencyText o) else none) =
      o.map Tendency.means := by
  rcases o with _ | (_ | _ | _)
  · rfl
  all_goals simp [optCap, tendencyText]; decide

theorem range_reads : Spec.Reads rangeGrammar MetarRegExp.RUNWAY_RANGE RunwayRange.new := by
  constructor
  · rintro ⟨rw, low, high, feet, tend⟩ ⟨hr, hlo, hhi⟩
    simp only at hr hlo hhi
    obtain ⟨xl, el, sl⟩ := setRange_says low hlo feet
    rcases high with _ | hi
    · have hc : Chosen rangeSlots[1].1 [py!"R", rw.text, py!"/", limitText low.limit, low.digits,
          if feet then py!"FT" else [], tendencyText tend]
          [none, some .name, none, optCap .rvrlow low.limit, some .low, if feet then some .units else none,
            optCap .trend tend] :=
        .cons (lit_slot _) (.cons (runway_slot sideRLC_class _ _ hr) (.cons (lit_slot _)
          (.cons (limit_slot _ _) (.cons (rangeDigits_slot _ _ hlo) (.cons (flag_slot _ _ _)
          (.cons (tendency_slot _ _) .nil))))))
      obtain ⟨m, h1, h2, ⟨-, g2, -, g4, g5, g6, g7, -⟩, hab⟩ :=
        RE.alt_match range_table (p := rangeSlots[1]) (List.getElem_mem _) hc
      have e : (RangeGroup.mk rw low none feet tend).text = List.flatten [py!"R", rw.text, py!"/",
          limitText low.limit, low.digits, if feet then py!"FT" else [], tendencyText tend] := by
        simp [RangeGroup.text, RangeValue.text, highText]
      have t2 := g2 .name (by simp [Slot.runway, Slot.shapes])
      have t4 := g4 .rvrlow (by simp [Slot.optOne])
      have t5 := g5 .low (by simp [Slot.digits])
      have t6 := g6 .units (by simp [Slot.opt])
      have t7 := g7 .trend (by simp [Slot.optOne])
      have t8 : m.group .rvrhigh = none := hab .rvrhigh (by simp [rangeSlots])
      have t9 : m.group .high = none := hab .high (by simp [rangeSlots])
      rw [if_pos rfl] at t2 t5
      rw [flag_group] at t6
      refine ⟨m, ⟨some (shown _), some rw.spoken, low.limit.map Limit.means, none,
        tend.map Tendency.means, xl, none⟩,
        (show MetarRegExp.RUNWAY_RANGE.match (RangeGroup.text _) = _ by rw [e]; exact h1), ?_,
        ⟨rfl, rfl, rfl, sl, rfl, (fun v hv => by cases hv), (fun _ => rfl), rfl⟩⟩
      unfold RunwayRange.new
      dsimp only
      rw [t2, t4, t5, t6, t7, t8, t9, limit_group, tendency_group, el, runway_spoken rw hr, h2, ← e]
      simp only [groupCode, shown_eq]
      rfl
    · have hhi := hhi hi rfl
      obtain ⟨xh, eh, sh⟩ := setRange_says hi hhi feet
      have hc : Chosen rangeSlots[0].1 [py!"R", rw.text, py!"/", limitText low.limit, low.digits, py!"V",
          limitText hi.limit, hi.digits, if feet then py!"FT" else [], tendencyText tend]
          [none, some .name, none, optCap .rvrlow low.limit, some .low, none,
            optCap .rvrhigh hi.limit, some .high, if feet then some .units else none,
            optCap .trend tend] :=
        .cons (lit_slot _) (.cons (runway_slot sideRLC_class _ _ hr) (.cons (lit_slot _)
          (.cons (limit_slot _ _) (.cons (rangeDigits_slot _ _ hlo) (.cons (lit_slot _)
          (.cons (limit_slot _ _) (.cons (rangeDigits_slot _ _ hhi) (.cons (flag_slot _ _ _)
          (.cons (tendency_slot _ _) .nil)))))))))
      obtain ⟨m, h1, h2, ⟨-, g2, -, g4, g5, -, g8, g9, g6, g7, -⟩, -⟩ :=
        RE.alt_match range_table (p := rangeSlots[0]) (List.getElem_mem _) hc
      have e : (RangeGroup.mk rw low (some hi) feet tend).text = List.flatten [py!"R", rw.text, py!"/",
          limitText low.limit, low.digits, py!"V", limitText hi.limit, hi.digits,
          if feet then py!"FT" else [], tendencyText tend] := by
        simp [RangeGroup.text, RangeValue.text, highText]
      have t2 := g2 .name (by simp [Slot.runway, Slot.shapes])
      have t4 := g4 .rvrlow (by simp [Slot.optOne])
      have t5 := g5 .low (by simp [Slot.digits])
      have t6 := g6 .units (by simp [Slot.opt])
      have t7 := g7 .trend (by simp [Slot.optOne])
      have t8 := g8 .rvrhigh (by simp [Slot.optOne])
      have t9 := g9 .high (by simp [Slot.digits])
      rw [if_pos rfl] at t2 t5 t9
      rw [flag_group] at t6
      refine ⟨m, ⟨some (shown _), some rw.spoken, low.limit.map Limit.means, hi.limit.map Limit.means,
        tend.map Tendency.means, xl, xh⟩,
        (show MetarRegExp.RUNWAY_RANGE.match (RangeGroup.text _) = _ by rw [e]; exact h1), ?_,
        ⟨rfl, rfl, rfl, sl, rfl, (fun v hv => by cases hv; exact sh), (fun hv => by cases hv), rfl⟩⟩
      unfold RunwayRange.new
      dsimp only
      rw [t2, t4, t5, t6, t7, t8, t9, limit_group, limit_group, tendency_group, el, eh,
        runway_spoken rw hr, h2, ← e]
      simp only [groupCode, shown_eq]
      rfl
  · intro s m hm hn
    obtain ⟨p, hp, ts, os, hc, rfl⟩ := RE.alt_only range_table hm hn
    simp only [rangeSlots, List.mem_cons, List.not_mem_nil, or_false] at hp
    rcases hp with rfl | rfl
    · obtain ⟨t1, _, o1, _, rfl, rfl, h1, hc⟩ := hc.cons_inv
      obtain ⟨t2, _, o2, _, rfl, rfl, h2, hc⟩ := hc.cons_inv
      obtain ⟨t3, _, o3, _, rfl, rfl, h3, hc⟩ := hc.cons_inv
      obtain ⟨t4, _, o4, _, rfl, rfl, h4, hc⟩ := hc.cons_inv
      obtain ⟨t5, _, o5, _, rfl, rfl, h5, hc⟩ := hc.cons_inv
      obtain ⟨t6, _, o6, _, rfl, rfl, h6, hc⟩ := hc.cons_inv
      obtain ⟨t7, _, o7, _, rfl, rfl, h7, hc⟩ := hc.cons_inv
      obtain ⟨t8, _, o8, _, rfl, rfl, h8, hc⟩ := hc.cons_inv
      obtain ⟨t9, _, o9, _, rfl, rfl, h9, hc⟩ := hc.cons_inv
      obtain ⟨t0, _, o0, _, rfl, rfl, h0, hc⟩ := hc.cons_inv
      obtain ⟨rfl, rfl⟩ := hc.nil_inv
      obtain ⟨rfl, -⟩ := Slot.lit_has.1 h1
      obtain ⟨rw, wr, rfl⟩ := runway_slot_inv sideRLC_class h2
      obtain ⟨rfl, -⟩ := Slot.lit_has.1 h3
      obtain ⟨l, rfl⟩ := limit_slot_inv h4
      obtain ⟨rfl, -⟩ := Slot.lit_has.1 h6
      obtain ⟨l', rfl⟩ := limit_slot_inv h7
      obtain ⟨b, rfl⟩ := flag_slot_inv h9
      obtain ⟨tn, rfl⟩ := tendency_slot_inv h0
      refine ⟨⟨rw, ⟨l, t5⟩, some ⟨l', t8⟩, b, tn⟩,
        ⟨wr, rangeDigits_slot_inv h5 _, fun v hv => by cases hv; exact rangeDigits_slot_inv h8 _⟩, ?_⟩
      simp [rangeGrammar, RangeGroup.text, RangeValue.text, highText]
    · obtain ⟨t1, _, o1, _, rfl, rfl, h1, hc⟩ := hc.cons_inv
      obtain ⟨t2, _, o2, _, rfl, rfl, h2, hc⟩ := hc.cons_inv
      obtain ⟨t3, _, o3, _, rfl, rfl, h3, hc⟩ := hc.cons_inv
      obtain ⟨t4, _, o4, _, rfl, rfl, h4, hc⟩ := hc.cons_inv
      obtain ⟨t5, _, o5, _, rfl, rfl, h5, hc⟩ := hc.cons_inv
      obtain ⟨t9, _, o9, _, rfl, rfl, h9, hc⟩ := hc.cons_inv
      obtain ⟨t0, _, o0, _, rfl, rfl, h0, hc⟩ := hc.cons_inv
      obtain ⟨rfl, rfl⟩ := hc.nil_inv
      obtain ⟨rfl, -⟩ := Slot.lit_has.1 h1
      obtain ⟨rw, wr, rfl⟩ := runway_slot_inv sideRLC_class h2
      obtain ⟨rfl, -⟩ := Slot.lit_has.1 h3
      obtain ⟨l, rfl⟩ := limit_slot_inv h4
      obtain ⟨b, rfl⟩ := flag_slot_inv h9
      obtain ⟨tn, rfl⟩ := tendency_slot_inv h0
      refine ⟨⟨rw, ⟨l, t5⟩, none, b, tn⟩,
        ⟨wr, rangeDigits_slot_inv h5 _, fun v hv => by cases hv⟩, ?_⟩
      simp [rangeGrammar, RangeGroup.text, RangeValue.text, highText]

end Verif
