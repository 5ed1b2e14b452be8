import Verif.Lemmas.RangeRead
import Verif.Lemmas.Codes

/-
Decoding of wind shear, sea state and runway state groups.
-/

namespace Verif
open Spec

/-! ### Wind shear -/

theorem shear_name (r : RunwayCode) (h : r.WF) :
    (if r.text.length = 2 then some r.text
      else if r.text.length = 3 then setRunwayName (some r.text) else none) = some r.plain := by
  rw [runway_length r h]
  obtain ⟨ds, _ | s⟩ := r
  · simp [RunwayCode.text, RunwayCode.plain, sideText]
  · simp only [Option.isSome_some, if_true]
    exact setRunwayName_side s h.1 h.2

theorem shear_all (b : Bool) : strTruthy (if b then some py!"_ALL" else none) = b := by
  cases b <;> rfl

theorem shear_reads : Spec.Reads shearGrammar MetarRegExp.WINDSHEAR (fun m => .ok (Windshear.new m)) := by
  constructor
  · rintro ⟨all, rw⟩ hr
    rcases rw with _ | rw
    · have hc : Chosen shearSlots[0].1 [py!"WS", if all then py!"_ALL" else [], py!"_RWY"]
          [none, if all then some .all else none, none] :=
        .cons (lit_slot _) (.cons (flag_slot _ _ _) (.cons (lit_slot _) .nil))
      obtain ⟨m, h1, h2, ⟨-, g2, -, -⟩, hab⟩ :=
        RE.alt_match shear_table (p := shearSlots[0]) (List.getElem_mem _) hc
      have e : (ShearGroup.mk all none).text = List.flatten [py!"WS", if all then py!"_ALL" else [],
          py!"_RWY"] := by simp [ShearGroup.text]
      have t2 := g2 .all (by simp [Slot.opt])
      have t3 : m.group .name = none := hab .name (by simp [shearSlots])
      rw [flag_group] at t2
      refine ⟨m, _, (show MetarRegExp.WINDSHEAR.match (ShearGroup.text _) = _ by rw [e]; exact h1),
        rfl, ?_, ?_, ?_⟩
      · simp only [Windshear.new, h2, ← e]
        simp only [groupCode, ← shown_eq, shown_shown]
      · simp only [Windshear.all_, Windshear.new, t2, shear_all]
      · simp only [Windshear.new, t3, Option.map_none]
    · have hr : rw.WF := hr rw rfl
      have hc : Chosen shearSlots[1].1 [py!"WS", if all then py!"_ALL" else [], py!"_R", rw.text]
          [none, if all then some .all else none, none, some .name] :=
        .cons (lit_slot _) (.cons (flag_slot _ _ _) (.cons (lit_slot _)
          (.cons (runway_slot sideRCL_class _ _ hr) .nil)))
      obtain ⟨m, h1, h2, ⟨-, g2, -, g4, -⟩, hab⟩ :=
        RE.alt_match shear_table (p := shearSlots[1]) (List.getElem_mem _) hc
      have e : (ShearGroup.mk all (some rw)).text = List.flatten [py!"WS",
          if all then py!"_ALL" else [], py!"_R", rw.text] := by simp [ShearGroup.text]
      have t2 := g2 .all (by simp [Slot.opt])
      have t4 := g4 .name (by simp [Slot.runway, Slot.shapes])
      rw [flag_group] at t2
      rw [if_pos rfl] at t4
      refine ⟨m, _, (show MetarRegExp.WINDSHEAR.match (ShearGroup.text _) = _ by rw [e]; exact h1),
        rfl, ?_, ?_, ?_⟩
      · simp only [Windshear.new, h2, ← e]
        simp only [groupCode, ← shown_eq, shown_shown]
      · simp only [Windshear.all_, Windshear.new, t2, shear_all]
      · simp only [Windshear.new, t4, Option.map_some]
        exact shear_name rw hr
  · intro s m hm hn
    obtain ⟨p, hp, ts, os, hc, rfl⟩ := RE.alt_only shear_table hm hn
    simp only [shearSlots, List.mem_cons, List.not_mem_nil, or_false] at hp
    rcases hp with rfl | rfl
    · obtain ⟨t1, _, o1, _, rfl, rfl, h1, hc⟩ := hc.cons_inv
      obtain ⟨t2, _, o2, _, rfl, rfl, h2, hc⟩ := hc.cons_inv
      obtain ⟨t3, _, o3, _, rfl, rfl, h3, hc⟩ := hc.cons_inv
      obtain ⟨rfl, rfl⟩ := hc.nil_inv
      obtain ⟨rfl, -⟩ := Slot.lit_has.1 h1
      obtain ⟨b, rfl⟩ := flag_slot_inv h2
      obtain ⟨rfl, -⟩ := Slot.lit_has.1 h3
      exact ⟨⟨b, none⟩, (fun r hr => by cases hr), by simp [shearGrammar, ShearGroup.text]⟩
    · obtain ⟨t1, _, o1, _, rfl, rfl, h1, hc⟩ := hc.cons_inv
      obtain ⟨t2, _, o2, _, rfl, rfl, h2, hc⟩ := hc.cons_inv
      obtain ⟨t3, _, o3, _, rfl, rfl, h3, hc⟩ := hc.cons_inv
      obtain ⟨t4, _, o4, _, rfl, rfl, h4, hc⟩ := hc.cons_inv
      obtain ⟨rfl, rfl⟩ := hc.nil_inv
      obtain ⟨rfl, -⟩ := Slot.lit_has.1 h1
      obtain ⟨b, rfl⟩ := flag_slot_inv h2
      obtain ⟨rfl, -⟩ := Slot.lit_has.1 h3
      obtain ⟨r, wr, rfl⟩ := runway_slot_inv sideRCL_class h4
      exact ⟨⟨b, some r⟩, (fun r hr => by cases hr; exact wr), by simp [shearGrammar, ShearGroup.text]⟩

/-! ### Sea state -/

theorem digitsN_slot (n : Nat) (c : Cap) {ds : PyStr} (hl : ds.length = n) (h : Digits ds) :
    (Slot.digits [n] [] c).Has ds (some c) := by
  rw [Slot.digits_has]
  exact ⟨.inl ⟨by simp [hl], h⟩, rfl⟩

theorem digitsN_slot_inv {n : Nat} {c : Cap} {ds : PyStr} {o : Option Cap}
    (h : (Slot.digits [n] [] c).Has ds o) : ds.length = n ∧ Digits ds := by
  rw [Slot.digits_has] at h
  rcases h with ⟨⟨h1, h2⟩ | h, -⟩
  · exact ⟨by simpa using h1, h2⟩
  · simp at h

theorem digits1 {ds : PyStr} (hl : ds.length = 1) (h : Digits ds) : ∃ d, ds = [d] ∧ isDigit d = true := by
  match ds, hl with
  | [a], _ => exact ⟨a, rfl, h a (by simp)⟩

theorem seaTemperature_digits {ds : PyStr} (hl : ds.length = 2) (hd : Digits ds) (b : Bool) :
    seaTemperature (some ds) (if b then some py!"M" else none) =
      .ok (some (signed b (digitsVal ds))) := by
  cases b with
  | false => exact temperature_pos hl hd
  | true => exact temperature_neg hl hd

/-- Looking up a digit in a table with the ASCII digits. -/
theorem lookup_digit (words : List PyStr) (hw : words.length = 10) (d : Nat) (rest : List (PyStr × PyStr))
    (hr : ∀ k, isDigit k = true → rest.lookup [k] = none) (hd : isDigit d = true)
    (t : List (PyStr × PyStr))
    (ht : t = (List.range 10).map (fun i => ([48 + i], words.getD i [])) ++ rest) :
    dget t [d] = digitWord words d := by
  subst ht
  unfold dget digitWord
  match words, hw with
  | [w0, w1, w2, w3, w4, w5, w6, w7, w8, w9], _ =>
    by_cases h : 48 ≤ d ∧ d < 58
    · have : d = 48 ∨ d = 49 ∨ d = 50 ∨ d = 51 ∨ d = 52 ∨ d = 53 ∨ d = 54 ∨ d = 55 ∨ d = 56 ∨ d = 57 := by
        omega
      rcases this with rfl | rfl | rfl | rfl | rfl | rfl | rfl | rfl | rfl | rfl <;> rfl
    · rw [if_neg h]
      have e : ∀ i, i < 10 → ([d] == [48 + i]) = false := by
        intro i hi
        simp only [List.cons_beq_cons, beq_self_eq_true, Bool.and_true, beq_eq_false_iff_ne]
        omega
      show List.lookup [d] (([48 + 0], _) :: ([48 + 1], _) :: ([48 + 2], _) :: ([48 + 3], _) ::
        ([48 + 4], _) :: ([48 + 5], _) :: ([48 + 6], _) :: ([48 + 7], _) :: ([48 + 8], _) ::
        ([48 + 9], _) :: rest) = none
      simp only [List.lookup, e _ (by omega : 0 < 10), e _ (by omega : 1 < 10),
        e _ (by omega : 2 < 10), e _ (by omega : 3 < 10), e _ (by omega : 4 < 10),
        e _ (by omega : 5 < 10), e _ (by omega : 6 < 10), e _ (by omega : 7 < 10),
        e _ (by omega : 8 < 10), e _ (by omega : 9 < 10)]
      exact hr d hd

theorem sea_word {d : Nat} (h : isDigit d = true) : dget seaStateTable [d] = digitWord seaWords d :=
  lookup_digit seaWords rfl d [] (fun _ _ => rfl) h _ (by decide)

theorem sea_reads : Spec.Reads seaGrammar MetarRegExp.SEA_STATE SeaState.new := by
  constructor
  · rintro ⟨minus, temp, value⟩ ⟨⟨hl, hd⟩, hv⟩
    rcases value with d | ds
    · have hc : Chosen seaSlots[0].1 [py!"W", if minus then py!"M" else [], temp, py!"/S", [d]]
          [none, if minus then some .sign else none, some .temp, none, some .state] :=
        .cons (lit_slot _) (.cons (flag_slot _ _ _) (.cons (digitsN_slot 2 _ hl hd) (.cons (lit_slot _)
          (.cons (digitsN_slot 1 _ rfl (by intro c hc; simp at hc; subst hc; exact hv)) .nil))))
      obtain ⟨m, h1, h2, ⟨-, g2, g3, -, g5, -⟩, hab⟩ :=
        RE.alt_match sea_table (p := seaSlots[0]) (List.getElem_mem _) hc
      have e : (SeaGroup.mk minus temp (.state d)).text = List.flatten [py!"W",
          if minus then py!"M" else [], temp, py!"/S", [d]] := by simp [SeaGroup.text, SeaValue.text]
      have t2 := g2 .sign (by simp [Slot.opt])
      have t3 := g3 .temp (by simp [Slot.digits])
      have t5 := g5 .state (by simp [Slot.digits])
      have t6 : m.group .height = none := hab .height (by simp [seaSlots])
      rw [flag_group] at t2
      rw [if_pos rfl] at t3 t5
      refine ⟨m, ⟨some (shown _), some (signed minus (digitsVal temp)), digitWord seaWords d, none⟩,
        (show MetarRegExp.SEA_STATE.match (SeaGroup.text _) = _ by rw [e]; exact h1), ?_, rfl, rfl, rfl, rfl⟩
      unfold SeaState.new
      rw [t2, t3, t5, t6, seaTemperature_digits hl hd, h2, ← e]
      simp only [groupCode, shown_eq, dgetO, sea_word hv, pyInt]
      rfl
    · obtain ⟨hl3, hd3⟩ := hv
      have hc : Chosen seaSlots[1].1 [py!"W", if minus then py!"M" else [], temp, py!"/H", ds]
          [none, if minus then some .sign else none, some .temp, none, some .height] :=
        .cons (lit_slot _) (.cons (flag_slot _ _ _) (.cons (digitsN_slot 2 _ hl hd) (.cons (lit_slot _)
          (.cons (digitsN_slot 3 _ hl3 hd3) .nil))))
      obtain ⟨m, h1, h2, ⟨-, g2, g3, -, g5, -⟩, hab⟩ :=
        RE.alt_match sea_table (p := seaSlots[1]) (List.getElem_mem _) hc
      have e : (SeaGroup.mk minus temp (.height ds)).text = List.flatten [py!"W",
          if minus then py!"M" else [], temp, py!"/H", ds] := by simp [SeaGroup.text, SeaValue.text]
      have t2 := g2 .sign (by simp [Slot.opt])
      have t3 := g3 .temp (by simp [Slot.digits])
      have t5 := g5 .height (by simp [Slot.digits])
      have t6 : m.group .state = none := hab .state (by simp [seaSlots])
      rw [flag_group] at t2
      rw [if_pos rfl] at t3 t5
      refine ⟨m, ⟨some (shown _), some (signed minus (digitsVal temp)), none,
        some ⟨rnd (digitsVal ds / 10), false⟩⟩,
        (show MetarRegExp.SEA_STATE.match (SeaGroup.text _) = _ by rw [e]; exact h1), ?_, rfl, rfl, rfl, rfl⟩
      have hne : ds ≠ [] := by rintro rfl; simp at hl3
      have hq : F64.lit (mkRat (digitsVal ds) 10) = ⟨rnd (digitsVal ds / 10), false⟩ := by
        rw [Rat.mkRat_eq_div, Rat.intCast_natCast]
        exact F64.mk'_false _
      unfold SeaState.new
      rw [t2, t3, t5, t6, seaTemperature_digits hl hd, h2, ← e]
      have hv : digitsVal ds ≤ 10000 := by
        have := digitsVal_lt ds
        rw [hl3] at this
        omega
      have hw := written_rnd (written_digits hv (c := 1 / 10) (by decide +kernel) (by decide +kernel))
      rw [show (digitsVal ds : Rat) * (1 / 10) = digitsVal ds / 10 by
        rw [Rat.div_def 1, Rat.one_mul, ← Rat.div_def]] at hw
      simp only [groupCode, shown_eq, dgetO, pyInt, intOf_digits hne hd3, hq, distance_repr hw.1 hw.2]
      rfl
  · intro s m hm hn
    obtain ⟨p, hp, ts, os, hc, rfl⟩ := RE.alt_only sea_table hm hn
    simp only [seaSlots, List.mem_cons, List.not_mem_nil, or_false] at hp
    rcases hp with rfl | rfl
    · obtain ⟨t1, _, o1, _, rfl, rfl, h1, hc⟩ := hc.cons_inv
      obtain ⟨t2, _, o2, _, rfl, rfl, h2, hc⟩ := hc.cons_inv
      obtain ⟨t3, _, o3, _, rfl, rfl, h3, hc⟩ := hc.cons_inv
      obtain ⟨t4, _, o4, _, rfl, rfl, h4, hc⟩ := hc.cons_inv
      obtain ⟨t5, _, o5, _, rfl, rfl, h5, hc⟩ := hc.cons_inv
      obtain ⟨rfl, rfl⟩ := hc.nil_inv
      obtain ⟨rfl, -⟩ := Slot.lit_has.1 h1
      obtain ⟨b, rfl⟩ := flag_slot_inv h2
      obtain ⟨rfl, -⟩ := Slot.lit_has.1 h4
      obtain ⟨hl, hd⟩ := digitsN_slot_inv h5
      obtain ⟨d, rfl, hd'⟩ := digits1 hl hd
      exact ⟨⟨b, t3, .state d⟩, ⟨digitsN_slot_inv h3, hd'⟩,
        by simp [seaGrammar, SeaGroup.text, SeaValue.text]⟩
    · obtain ⟨t1, _, o1, _, rfl, rfl, h1, hc⟩ := hc.cons_inv
      obtain ⟨t2, _, o2, _, rfl, rfl, h2, hc⟩ := hc.cons_inv
      obtain ⟨t3, _, o3, _, rfl, rfl, h3, hc⟩ := hc.cons_inv
      obtain ⟨t4, _, o4, _, rfl, rfl, h4, hc⟩ := hc.cons_inv
      obtain ⟨t5, _, o5, _, rfl, rfl, h5, hc⟩ := hc.cons_inv
      obtain ⟨rfl, rfl⟩ := hc.nil_inv
      obtain ⟨rfl, -⟩ := Slot.lit_has.1 h1
      obtain ⟨b, rfl⟩ := flag_slot_inv h2
      obtain ⟨rfl, -⟩ := Slot.lit_has.1 h4
      exact ⟨⟨b, t3, .height t5⟩, ⟨digitsN_slot_inv h3, digitsN_slot_inv h5⟩,
        by simp [seaGrammar, SeaGroup.text, SeaValue.text]⟩

/-! ### Runway state -/

theorem lookup_single {k a v : PyStr} (h : k ≠ a) : List.lookup k [(a, v)] = none := by
  have : (k == a) = false := by simpa using h
  simp only [List.lookup, this]

theorem optRunway_slot (c : Cap) (o : Option RunwayCode) (h : ∀ r, o = some r → r.WF) :
    (Slot.optRunway sideRLC c).Has (runwayText o) (optCap c o) := by
  cases o with
  | none => exact ⟨([], none), by simp [Slot.optRunway], rfl, rfl⟩
  | some r =>
    obtain ⟨ks, hk, hs⟩ := runway_shape sideRLC_class r (h r rfl)
    refine ⟨(ks, some c), ?_, hs, rfl⟩
    simp only [List.mem_cons, List.not_mem_nil, or_false] at hk
    rcases hk with rfl | rfl <;> simp [Slot.optRunway]

theorem optRunway_slot_inv {c : Cap} {t : PyStr} {o : Option Cap}
    (h : (Slot.optRunway sideRLC c).Has t o) :
    ∃ r : Option RunwayCode, (∀ x, r = some x → x.WF) ∧ t = runwayText r := by
  obtain ⟨a, ha, hs, -⟩ := h
  simp only [Slot.optRunway, List.mem_cons, List.not_mem_nil, or_false] at ha
  rcases ha with rfl | rfl | rfl
  · obtain ⟨r, hr, rfl⟩ := runway_shape_inv sideRLC_class ⟨_, by simp, hs⟩
    exact ⟨some r, (fun x hx => by cases hx; exact hr), rfl⟩
  · obtain ⟨r, hr, rfl⟩ := runway_shape_inv sideRLC_class ⟨_, by simp, hs⟩
    exact ⟨some r, (fun x hx => by cases hx; exact hr), rfl⟩
  · cases hs
    exact ⟨none, (fun x hx => by cases hx), rfl⟩

theorem optRunway_name (c : Cap) (o : Option RunwayCode) (h : ∀ r, o = some r → r.WF) :
    setRunwayName (if optCap c o = some c then some (runwayText o) else none) =
      o.map RunwayCode.spoken := by
  cases o with
  | none => rfl
  | some r =>
    simp only [optCap, Option.map_some, if_true, runwayText]
    exact runway_spoken r (h r rfl)

theorem one_slot (c : Cap) (o : Option Nat) (h : oneWF o) :
    (Slot.digits [1] [py!"/"] c).Has (oneText o) (some c) := by
  rw [Slot.digits_has]
  refine ⟨?_, rfl⟩
  cases o with
  | none => exact .inr (by simp [oneText])
  | some d =>
    refine .inl ⟨by simp [oneText], fun x hx => ?_⟩
    simp [oneText] at hx
    subst hx
    exact h _ rfl

theorem one_slot_inv {c : Cap} {t : PyStr} {o : Option Cap}
    (h : (Slot.digits [1] [py!"/"] c).Has t o) : ∃ x, oneWF x ∧ t = oneText x := by
  rw [Slot.digits_has] at h
  rcases h with ⟨⟨h1, h2⟩ | h, -⟩
  · obtain ⟨d, rfl, hd⟩ := digits1 (by simpa using h1) h2
    exact ⟨some d, (fun x hx => by cases hx; exact hd), rfl⟩
  · simp only [List.mem_cons, List.not_mem_nil, or_false] at h
    exact ⟨none, (fun x hx => by cases hx), h⟩

theorem two_slot (c : Cap) (o : Option PyStr) (h : twoWF o) :
    (Slot.digits [2] [py!"//"] c).Has (twoText o) (some c) := by
  rw [Slot.digits_has]
  refine ⟨?_, rfl⟩
  cases o with
  | none => exact .inr (by simp [twoText])
  | some ds => exact .inl ⟨by simp [twoText, (h ds rfl).1], (h ds rfl).2⟩

theorem two_slot_inv {c : Cap} {t : PyStr} {o : Option Cap}
    (h : (Slot.digits [2] [py!"//"] c).Has t o) : ∃ x, twoWF x ∧ t = twoText x := by
  rw [Slot.digits_has] at h
  rcases h with ⟨⟨h1, h2⟩ | h, -⟩
  · exact ⟨some t, (fun x hx => by cases hx; exact ⟨by simpa using h1, h2⟩), rfl⟩
  · simp only [List.mem_cons, List.not_mem_nil, or_false] at h
    exact ⟨none, (fun x hx => by cases hx), h⟩

theorem deposit_word (o : Option Nat) (h : oneWF o) :
    dgetO runwayDeposits (some (oneText o)) = depositMeans o := by
  cases o with
  | none => decide
  | some d =>
    refine lookup_digit depositWords rfl d [(py!"/", _)] (fun k hk => ?_) (h d rfl) _ rfl
    apply lookup_single
    intro e
    cases e
    revert hk
    decide

theorem cont_word (o : Option Nat) (h : oneWF o) :
    dgetO runwayContamination (some (oneText o)) = contMeans o := by
  cases o with
  | none => decide
  | some d =>
    have hd := h d rfl
    by_cases hr : 48 ≤ d ∧ d < 58
    · have : d = 48 ∨ d = 49 ∨ d = 50 ∨ d = 51 ∨ d = 52 ∨ d = 53 ∨ d = 54 ∨ d = 55 ∨ d = 56 ∨ d = 57 := by
        omega
      rcases this with rfl | rfl | rfl | rfl | rfl | rfl | rfl | rfl | rfl | rfl <;> rfl
    · have e : ∀ i, i < 10 → ([d] == [48 + i]) = false := by
        intro i hi
        simp only [List.cons_beq_cons, beq_self_eq_true, Bool.and_true, beq_eq_false_iff_ne]
        omega
      have hs : ([d] == py!"/") = false := by
        simp only [List.cons_beq_cons, beq_self_eq_true, Bool.and_true, beq_eq_false_iff_ne]
        rintro rfl
        revert hd; decide
      have lhs : dgetO runwayContamination (some [d]) = none := by
        simp only [dgetO, dget, runwayContamination, List.lookup, e 1 (by omega), e 2 (by omega),
          e 3 (by omega), e 4 (by omega), e 5 (by omega), e 6 (by omega), e 7 (by omega),
          e 8 (by omega), e 9 (by omega), hs]
      unfold oneText contMeans
      rw [lhs]
      simp only
      rw [if_neg (by omega), if_neg (by omega), if_neg (by omega), if_neg (by omega), if_neg (by omega)]

theorem lookup_append_none {t r : List (PyStr × PyStr)} {k : PyStr} (h : r.lookup k = none) :
    (t ++ r).lookup k = t.lookup k := by
  rw [List.lookup_append, h]
  cases List.lookup k t <;> rfl

theorem depth_word (o : Option PyStr) (h : twoWF o) :
    setDepositsDepth (some (twoText o)) = depthMeans o := by
  cases o with
  | none => decide
  | some ds =>
    obtain ⟨hl, hd⟩ := h ds rfl
    have hne : ds ≠ [] := by rintro rfl; simp at hl
    unfold setDepositsDepth depthMeans twoText
    simp only [intOf_digits hne hd]
    split
    · next hx => rw [if_pos (by omega)]
    · next hx =>
      rw [if_neg (by omega)]
      have hr : List.lookup ds [(py!"//", py!"depth of deposit operationally not significant or not measurable")] = none :=
        lookup_single (by rintro rfl; exact digits_no_slash hd (by simp))
      exact lookup_append_none (t := depthTable) hr

theorem fric_word (o : Option PyStr) (h : twoWF o) :
    setSurfaceFriction (some (twoText o)) = fricMeans o := by
  cases o with
  | none => decide
  | some ds =>
    obtain ⟨hl, hd⟩ := h ds rfl
    have hne : ds ≠ [] := by rintro rfl; simp at hl
    unfold setSurfaceFriction fricMeans twoText
    simp only [intOf_digits hne hd]
    split
    · rfl
    · have hr : List.lookup ds [(py!"//", py!"breaking conditions not reported and/or runway not operational")] = none :=
        lookup_single (by rintro rfl; exact digits_no_slash hd (by simp))
      exact lookup_append_none (t := fricTable) hr

theorem cleared_text (x : RunwayState) (h : x.clrd_ = true) : x.clrd = some (clearedText x.name) := by
  unfold RunwayState.clrd clearedText
  rw [if_neg (by simp [h])]
  rcases x.name with _ | n
  · decide
  · simp only [Option.some.injEq]
    split
    · rfl
    · split
      · next hx => subst hx; rfl
      · rfl

theorem word_slot (w : PyStr) (c : Cap) : (Slot.shapes [litShape w] c).Has w (some c) := by
  rw [Slot.shapes_has]
  exact ⟨⟨_, List.mem_cons_self, hasShape_lit w⟩, rfl⟩

theorem word_slot_inv {w : PyStr} {c : Cap} {t : PyStr} {o : Option Cap}
    (h : (Slot.shapes [litShape w] c).Has t o) : t = w := by
  rw [Slot.shapes_has] at h
  obtain ⟨⟨ks, hk, hs⟩, -⟩ := h
  simp only [List.mem_cons, List.not_mem_nil, or_false] at hk
  subst hk
  exact hasShape_lit_iff.1 hs

/-- The text of a runway state with its four figures. -/
theorem state_shown (x : RunwayState) (rw : Option RunwayCode) (a b : Option Nat) (c d : Option PyStr)
    (ha : oneWF a) (hc : twoWF c) (hd : twoWF d)
    (h0 : x.present = true) (h1 : x.snoclo = false) (h2 : x.clrd = none)
    (h3 : x.name = rw.map RunwayCode.spoken) (h4 : x.deposits = depositMeans a)
    (h5 : x.contamination = contMeans b) (h6 : x.depth = depthMeans c) (h7 : x.friction = fricMeans d)
    (h8 : x.mDeposit = some (oneText a)) (h9 : x.mDepth = some (twoText c))
    (h10 : x.mFric = some (twoText d)) : x.str = (RwyStateGroup.mk rw (.state a b c d)).shows := by
  have fo : ∀ o : Option PyStr, fmtO o = orNone o := by intro o; cases o <;> rfl
  have hdep : x.depositsText = depositShows a c := by
    have e99 : (x.mDepth = some py!"99" ∨ x.mDepth = some py!"//") ↔ (c = none ∨ c = some py!"99") := by
      rw [h9]
      cases c with
      | none => simp [twoText]
      | some ds =>
        have : ds ≠ py!"//" := by
          rintro rfl
          exact absurd ((hc _ rfl).2 47 (by simp)) (by decide)
        simp [twoText, this]
    have hn : x.mDepth ≠ none := by rw [h9]; simp
    have hn' : x.mDeposit ≠ none := by rw [h8]; simp
    unfold RunwayState.depositsText depositShows
    simp only [fo, h4, h6, e99, hn, hn', ne_eq, not_false_eq_true, if_true]
    cases a with
    | none =>
      rw [if_pos (by rw [h8]; rfl)]
      by_cases hh : c = none ∨ c = some py!"99" <;> simp [hh]
    | some n =>
      rw [if_neg]
      · by_cases hh : c = none ∨ c = some py!"99" <;> simp [hh]
      · rw [h8]
        simp only [oneText, Option.some.injEq]
        intro e
        cases e
        exact absurd (ha 47 rfl) (by decide)
  have hfr : x.frictionText = fricShows d := by
    unfold RunwayState.frictionText fricShows
    rw [h10]
    simp only [fo, h7]
    cases d with
    | none =>
      have : intOf (twoText none) = none := by decide
      rw [this]; rfl
    | some ds =>
      obtain ⟨hl, hdd⟩ := hd ds rfl
      have : intOf (twoText (some ds)) = some (digitsVal ds) :=
        intOf_digits (by rintro rfl; simp at hl) hdd
      rw [this]
      simp only [Option.any_some, decide_eq_true_eq]
      by_cases hh : digitsVal ds ≤ 90
      · rw [if_pos hh, if_pos (by omega)]
      · rw [if_neg hh, if_neg (by omega)]; rfl
  unfold RunwayState.str
  rw [h0, h1, h2, hdep, hfr]
  simp only [fo, h3, h5]
  rfl

theorem rwyState_reads :
    Spec.Reads rwyStateGrammar MetarRegExp.RUNWAY_STATE (fun m => .ok (RunwayState.new m)) := by
  constructor
  · rintro ⟨rw, rep⟩ ⟨hr, hp⟩
    simp only at hr hp
    rcases rep with ⟨a, b, c, d⟩ | _ | _
    · obtain ⟨ha, hb, hcc, hd⟩ := hp
      have hc : Chosen rwyStateSlots[0].1 [py!"R", runwayText rw, py!"/", oneText a, oneText b,
          twoText c, twoText d]
          [none, optCap .name rw, none, some .deposit, some .cont, some .depth, some .fric] :=
        .cons (lit_slot _) (.cons (optRunway_slot _ _ hr) (.cons (lit_slot _) (.cons (one_slot _ _ ha)
          (.cons (one_slot _ _ hb) (.cons (two_slot _ _ hcc) (.cons (two_slot _ _ hd) .nil))))))
      obtain ⟨m, h1, h2, ⟨-, g2, -, g4, g5, g6, g7, -⟩, hab⟩ :=
        RE.alt_match rwyState_table (p := rwyStateSlots[0]) (List.getElem_mem _) hc
      have e : (RwyStateGroup.mk rw (.state a b c d)).text = List.flatten [py!"R", runwayText rw, py!"/",
          oneText a, oneText b, twoText c, twoText d] := by
        simp [RwyStateGroup.text, RwyReport.text]
      have t2 := g2 .name (by simp [Slot.optRunway])
      have t4 := g4 .deposit (by simp [Slot.digits])
      have t5 := g5 .cont (by simp [Slot.digits])
      have t6 := g6 .depth (by simp [Slot.digits])
      have t7 := g7 .fric (by simp [Slot.digits])
      have t8 : m.group .snoclo = none := hab .snoclo (by simp [rwyStateSlots])
      have t9 : m.group .clrd = none := hab .clrd (by simp [rwyStateSlots])
      rw [if_pos rfl] at t4 t5 t6 t7
      refine ⟨m, _, (show MetarRegExp.RUNWAY_STATE.match (RwyStateGroup.text _) = _ by rw [e]; exact h1),
        rfl, ?_⟩
      constructor
      · simp only [RunwayState.new, h2, ← e]
        simp only [groupCode, shown_eq]
      · simp only [RunwayState.new, t2, optRunway_name _ _ hr]
      · simp only [RunwayState.new, t4, deposit_word a ha, RwyReport.deposit]
      · simp only [RunwayState.new, t5, cont_word b hb, RwyReport.cont]
      · simp only [RunwayState.new, t6, depth_word c hcc, RwyReport.depth]
      · simp only [RunwayState.new, t7, fric_word d hd, RwyReport.fric]
      · simp [RunwayState.new, t8]
      · simp [RunwayState.new, t9, RunwayState.clrd]
      · exact state_shown (RunwayState.new m) rw a b c d ha hcc hd rfl (by simp [RunwayState.new, t8])
          (by simp [RunwayState.new, t9, RunwayState.clrd])
          (by simp only [RunwayState.new, t2, optRunway_name _ _ hr])
          (by simp only [RunwayState.new, t4, deposit_word a ha])
          (by simp only [RunwayState.new, t5, cont_word b hb])
          (by simp only [RunwayState.new, t6, depth_word c hcc])
          (by simp only [RunwayState.new, t7, fric_word d hd])
          (by simp only [RunwayState.new, t4]) (by simp only [RunwayState.new, t6])
          (by simp only [RunwayState.new, t7])
    · have hc : Chosen rwyStateSlots[1].1 [py!"R", runwayText rw, py!"/", py!"SNOCLO"]
          [none, optCap .name rw, none, some .snoclo] :=
        .cons (lit_slot _) (.cons (optRunway_slot _ _ hr) (.cons (lit_slot _) (.cons (word_slot _ _) .nil)))
      obtain ⟨m, h1, h2, ⟨-, g2, -, g4, -⟩, hab⟩ :=
        RE.alt_match rwyState_table (p := rwyStateSlots[1]) (List.getElem_mem _) hc
      have e : (RwyStateGroup.mk rw .snoclo).text = List.flatten [py!"R", runwayText rw, py!"/",
          py!"SNOCLO"] := by
        simp [RwyStateGroup.text, RwyReport.text]
      have t2 := g2 .name (by simp [Slot.optRunway])
      have t4 := g4 .snoclo (by simp [Slot.shapes])
      have t5 : m.group .deposit = none := hab .deposit (by simp [rwyStateSlots])
      have t6 : m.group .cont = none := hab .cont (by simp [rwyStateSlots])
      have t7 : m.group .depth = none := hab .depth (by simp [rwyStateSlots])
      have t8 : m.group .fric = none := hab .fric (by simp [rwyStateSlots])
      have t9 : m.group .clrd = none := hab .clrd (by simp [rwyStateSlots])
      rw [if_pos rfl] at t4
      refine ⟨m, _, (show MetarRegExp.RUNWAY_STATE.match (RwyStateGroup.text _) = _ by rw [e]; exact h1),
        rfl, ?_⟩
      constructor
      · simp only [RunwayState.new, h2, ← e]
        simp only [groupCode, shown_eq]
      · simp only [RunwayState.new, t2, optRunway_name _ _ hr]
      · simp [RunwayState.new, t5, RwyReport.deposit, dgetO]
      · simp [RunwayState.new, t6, RwyReport.cont, dgetO]
      · simp [RunwayState.new, t7, RwyReport.depth, setDepositsDepth]
      · simp [RunwayState.new, t8, RwyReport.fric, setSurfaceFriction]
      · simp [RunwayState.new, t4]
      · simp [RunwayState.new, t9, RunwayState.clrd]
      · simp [RunwayState.str, RunwayState.new, t4, RwyStateGroup.shows]
    · have hc : Chosen rwyStateSlots[2].1 [py!"R", runwayText rw, py!"/", py!"CLRD//"]
          [none, optCap .name rw, none, some .clrd] :=
        .cons (lit_slot _) (.cons (optRunway_slot _ _ hr) (.cons (lit_slot _) (.cons (word_slot _ _) .nil)))
      obtain ⟨m, h1, h2, ⟨-, g2, -, g4, -⟩, hab⟩ :=
        RE.alt_match rwyState_table (p := rwyStateSlots[2]) (List.getElem_mem _) hc
      have e : (RwyStateGroup.mk rw .clrd).text = List.flatten [py!"R", runwayText rw, py!"/",
          py!"CLRD//"] := by
        simp [RwyStateGroup.text, RwyReport.text]
      have t2 := g2 .name (by simp [Slot.optRunway])
      have t4 := g4 .clrd (by simp [Slot.shapes])
      have t5 : m.group .deposit = none := hab .deposit (by simp [rwyStateSlots])
      have t6 : m.group .cont = none := hab .cont (by simp [rwyStateSlots])
      have t7 : m.group .depth = none := hab .depth (by simp [rwyStateSlots])
      have t8 : m.group .fric = none := hab .fric (by simp [rwyStateSlots])
      have t9 : m.group .snoclo = none := hab .snoclo (by simp [rwyStateSlots])
      rw [if_pos rfl] at t4
      have hname : (RunwayState.new m).name = rw.map RunwayCode.spoken := by
        simp only [RunwayState.new, t2, optRunway_name _ _ hr]
      refine ⟨m, _, (show MetarRegExp.RUNWAY_STATE.match (RwyStateGroup.text _) = _ by rw [e]; exact h1),
        rfl, ?_⟩
      constructor
      · simp only [RunwayState.new, h2, ← e]
        simp only [groupCode, shown_eq]
      · exact hname
      · simp [RunwayState.new, t5, RwyReport.deposit, dgetO]
      · simp [RunwayState.new, t6, RwyReport.cont, dgetO]
      · simp [RunwayState.new, t7, RwyReport.depth, setDepositsDepth]
      · simp [RunwayState.new, t8, RwyReport.fric, setSurfaceFriction]
      · simp [RunwayState.new, t9]
      · rw [cleared_text _ (by simp [RunwayState.new, t4]), hname]
        simp
      · have hcl := cleared_text (RunwayState.new m) (by simp [RunwayState.new, t4])
        rw [hname] at hcl
        unfold RunwayState.str
        rw [hcl, if_neg (by simp [RunwayState.new]), if_neg (by simp [RunwayState.new, t9])]
        rfl
  · intro s m hm hn
    obtain ⟨p, hp, ts, os, hc, rfl⟩ := RE.alt_only rwyState_table hm hn
    simp only [rwyStateSlots, List.mem_cons, List.not_mem_nil, or_false] at hp
    rcases hp with rfl | rfl | rfl
    · obtain ⟨t1, _, o1, _, rfl, rfl, h1, hc⟩ := hc.cons_inv
      obtain ⟨t2, _, o2, _, rfl, rfl, h2, hc⟩ := hc.cons_inv
      obtain ⟨t3, _, o3, _, rfl, rfl, h3, hc⟩ := hc.cons_inv
      obtain ⟨t4, _, o4, _, rfl, rfl, h4, hc⟩ := hc.cons_inv
      obtain ⟨t5, _, o5, _, rfl, rfl, h5, hc⟩ := hc.cons_inv
      obtain ⟨t6, _, o6, _, rfl, rfl, h6, hc⟩ := hc.cons_inv
      obtain ⟨t7, _, o7, _, rfl, rfl, h7, hc⟩ := hc.cons_inv
      obtain ⟨rfl, rfl⟩ := hc.nil_inv
      obtain ⟨rfl, -⟩ := Slot.lit_has.1 h1
      obtain ⟨r, wr, rfl⟩ := optRunway_slot_inv h2
      obtain ⟨rfl, -⟩ := Slot.lit_has.1 h3
      obtain ⟨a, wa, rfl⟩ := one_slot_inv h4
      obtain ⟨b, wb, rfl⟩ := one_slot_inv h5
      obtain ⟨c, wc, rfl⟩ := two_slot_inv h6
      obtain ⟨d, wd, rfl⟩ := two_slot_inv h7
      exact ⟨⟨r, .state a b c d⟩, ⟨wr, wa, wb, wc, wd⟩,
        by simp [rwyStateGrammar, RwyStateGroup.text, RwyReport.text]⟩
    · obtain ⟨t1, _, o1, _, rfl, rfl, h1, hc⟩ := hc.cons_inv
      obtain ⟨t2, _, o2, _, rfl, rfl, h2, hc⟩ := hc.cons_inv
      obtain ⟨t3, _, o3, _, rfl, rfl, h3, hc⟩ := hc.cons_inv
      obtain ⟨t4, _, o4, _, rfl, rfl, h4, hc⟩ := hc.cons_inv
      obtain ⟨rfl, rfl⟩ := hc.nil_inv
      obtain ⟨rfl, -⟩ := Slot.lit_has.1 h1
      obtain ⟨r, wr, rfl⟩ := optRunway_slot_inv h2
      obtain ⟨rfl, -⟩ := Slot.lit_has.1 h3
      cases word_slot_inv h4
      exact ⟨⟨r, .snoclo⟩, ⟨wr, trivial⟩,
        by simp [rwyStateGrammar, RwyStateGroup.text, RwyReport.text]⟩
    · obtain ⟨t1, _, o1, _, rfl, rfl, h1, hc⟩ := hc.cons_inv
      obtain ⟨t2, _, o2, _, rfl, rfl, h2, hc⟩ := hc.cons_inv
      obtain ⟨t3, _, o3, _, rfl, rfl, h3, hc⟩ := hc.cons_inv
      obtain ⟨t4, _, o4, _, rfl, rfl, h4, hc⟩ := hc.cons_inv
      obtain ⟨rfl, rfl⟩ := hc.nil_inv
      obtain ⟨rfl, -⟩ := Slot.lit_has.1 h1
      obtain ⟨r, wr, rfl⟩ := optRunway_slot_inv h2
      obtain ⟨rfl, -⟩ := Slot.lit_has.1 h3
      cases word_slot_inv h4
      exact ⟨⟨r, .clrd⟩, ⟨wr, trivial⟩,
        by simp [rwyStateGrammar, RwyStateGroup.text, RwyReport.text]⟩

end Verif
