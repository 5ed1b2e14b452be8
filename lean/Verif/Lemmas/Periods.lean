import Verif.Lemmas.PeriodForms
import Verif.Lemmas.Instants
import Verif.Lemmas.Read
import Verif.Lemmas.Raises

/-
Decoding of valid periods, FM changes, TAF temperatures and trend periods.
-/

namespace Verif
open Spec

/-! ### Numbers -/

theorem Spec.HourDigits.digits {top : Nat} {s : PyStr} (h : HourDigits top s) : s ≠ [] ∧ Digits s := by
  obtain ⟨a, b, rfl, ha, hb, -⟩ := h
  exact ⟨by simp, .cons (AsciiDigit.isDigit ha) (.cons hb .nil)⟩

theorem Spec.HourDigits.int {top : Nat} {s : PyStr} (h : HourDigits top s) :
    pyInt (some s) = .ok (digitsVal s) := pyInt_digits h.digits.1 h.digits.2

theorem Spec.HourDigits.le {top : Nat} {s : PyStr} (h : HourDigits top s) : digitsVal s ≤ top := by
  obtain ⟨a, b, rfl, -, -, h, -⟩ := h
  exact h

theorem Spec.MinuteDigits.digits {s : PyStr} (h : MinuteDigits s) : s ≠ [] ∧ Digits s := by
  obtain ⟨a, b, rfl, ha, hb, -⟩ := h
  exact ⟨by simp, .cons (AsciiDigit.isDigit ha) (.cons hb .nil)⟩

theorem Spec.MinuteDigits.int {s : PyStr} (h : MinuteDigits s) : pyInt (some s) = .ok (digitsVal s) :=
  pyInt_digits h.digits.1 h.digits.2

theorem Spec.MinuteDigits.le {s : PyStr} (h : MinuteDigits s) : digitsVal s ≤ 59 := by
  obtain ⟨a, b, rfl, -, -, h⟩ := h
  exact h

theorem day_int (d : Nat) : pyInt (some (padNat 2 d)) = .ok d := by
  rw [pyInt_digits (padNat_ne 2 d) (padNat_digits 2 d), padNat_val]

theorem shown_self {g : PyStr} (h : 95 ∉ g) : shown g = g := by
  unfold shown
  conv => rhs; rw [← List.map_id g]
  refine List.map_congr_left fun c hc => ?_
  have : c ≠ 95 := fun e => h (e ▸ hc)
  simp [this]

/-! ### Valid periods -/

theorem ValidGroup.no_underscore {w : ValidGroup} (h : w.WF) : 95 ∉ w.text := by
  obtain ⟨-, h2, -, h4⟩ := h
  unfold ValidGroup.text
  simp only [List.mem_append, not_or]
  exact ⟨⟨⟨⟨(padNat_digits _ _).ne (by decide), h2.digits.2.ne (by decide)⟩, by decide⟩,
    (padNat_digits _ _).ne (by decide)⟩, h4.digits.2.ne (by decide)⟩

theorem valid_match (w : ValidGroup) (h : w.WF) : ∃ m, TafRegExp.VALID.match w.text = some m ∧
    m.string = w.text ∧ Valid.Groups m w.fromDay (digitsVal w.fromHour) w.untilDay (digitsVal w.untilHour) := by
  obtain ⟨d1, h1, d2, h2⟩ := h
  have hc : Chosen validSlots [padNat 2 w.fromDay, w.fromHour, py!"/", padNat 2 w.untilDay, w.untilHour]
      [some .fmday, some .fmhour, none, some .tlday, some .tlhour] :=
    .cons (Slot.day_has.2 ⟨⟨_, d1, rfl⟩, rfl⟩) (.cons (Slot.hour23_has.2 ⟨h1, rfl⟩) (.cons (lit_slot _)
      (.cons (Slot.day_has.2 ⟨⟨_, d2, rfl⟩, rfl⟩)
        (.cons ((Slot.hour24_has (fun _ => set_one)).2 ⟨h2, rfl⟩) .nil))))
  obtain ⟨m, e1, e2, ⟨g1, g2, -, g4, g5, -⟩, -⟩ :=
    RE.alt_match valid_table (p := (validSlots, [])) (by simp) hc
  have e : w.text = List.flatten [padNat 2 w.fromDay, w.fromHour, py!"/", padNat 2 w.untilDay,
      w.untilHour] := by simp [ValidGroup.text]
  rw [← e] at e1 e2
  have t1 := g1 .fmday (by simp [Slot.day, Slot.shapes])
  have t2 := g2 .fmhour (by simp [Slot.hour23, Slot.shapes])
  have t4 := g4 .tlday (by simp [Slot.day, Slot.shapes])
  have t5 := g5 .tlhour (by simp [Slot.hour24, Slot.shapes])
  rw [if_pos rfl] at t1 t2 t4 t5
  exact ⟨m, e1, e2, by rw [t1, day_int], by rw [t2, h1.int], by rw [t4, day_int], by rw [t5, h2.int]⟩

theorem valid_only {s : PyStr} {m : Match} (hm : TafRegExp.VALID.match s = some m) (hn : 10 ∉ s) :
    ∃ w : ValidGroup, w.WF ∧ s = w.text := by
  obtain ⟨p, hp, ts, os, hc, rfl⟩ := RE.alt_only valid_table hm hn
  simp only [List.mem_cons, List.not_mem_nil, or_false] at hp
  subst hp
  obtain ⟨t1, _, o1, _, rfl, rfl, h1, hc⟩ := hc.cons_inv
  obtain ⟨t2, _, o2, _, rfl, rfl, h2, hc⟩ := hc.cons_inv
  obtain ⟨t3, _, o3, _, rfl, rfl, h3, hc⟩ := hc.cons_inv
  obtain ⟨t4, _, o4, _, rfl, rfl, h4, hc⟩ := hc.cons_inv
  obtain ⟨t5, _, o5, _, rfl, rfl, h5, hc⟩ := hc.cons_inv
  obtain ⟨rfl, rfl⟩ := hc.nil_inv
  obtain ⟨⟨d1, hd1, rfl⟩, -⟩ := Slot.day_has.1 h1
  obtain ⟨hh1, -⟩ := Slot.hour23_has.1 h2
  obtain ⟨rfl, -⟩ := Slot.lit_has.1 h3
  obtain ⟨⟨d2, hd2, rfl⟩, -⟩ := Slot.day_has.1 h4
  obtain ⟨hh2, -⟩ := (Slot.hour24_has (fun _ => set_one)).1 h5
  exact ⟨⟨d1, t2, d2, t5⟩, ⟨hd1, hh1, hd2, hh2⟩, by simp [ValidGroup.text]⟩

theorem valid_reads {t : DT} (ht : t.valid = true) :
    Spec.ReadsIfOk (validGrammar t) TafRegExp.VALID (fun m => Valid.fromTaf (some m) t) := by
  refine ⟨fun w hw => ?_, fun s m hm hn => valid_only hm hn⟩
  obtain ⟨m, e1, e2, e3⟩ := valid_match w hw
  refine ⟨m, e1, fun v hv => ?_⟩
  obtain ⟨h1, h2, h3⟩ := Valid.fromTaf_takes e3 ht hv
  refine ⟨h1, h2, ?_⟩
  rw [h3, e2, groupCode_some, shown_self (ValidGroup.no_underscore hw)]

/-! ### FM changes -/

theorem fm_match (w : FmGroup) (h : w.WF) : ∃ m, TafRegExp.CHANGE_INDICATOR.match w.text = some m ∧
    m.string = w.text ∧ pyInt (m.group .day) = .ok w.day ∧ pyInt (m.group .hour) = .ok (digitsVal w.hour) ∧
      pyInt (m.group .minute) = .ok (digitsVal w.minute) := by
  obtain ⟨d1, h1, m1⟩ := h
  have hc : Chosen changeSlots[2].1 [py!"FM", padNat 2 w.day, w.hour, w.minute]
      [none, some .day, some .hour, some .minute] :=
    .cons (lit_slot _) (.cons (Slot.day_has.2 ⟨⟨_, d1, rfl⟩, rfl⟩) (.cons (Slot.hour23_has.2 ⟨h1, rfl⟩)
      (.cons (Slot.minute_has.2 ⟨m1, rfl⟩) .nil)))
  obtain ⟨m, e1, e2, ⟨-, g2, g3, g4, -⟩, -⟩ :=
    RE.alt_begin_match change_table (p := changeSlots[2]) (List.getElem_mem _) hc
  have e : w.text = List.flatten [py!"FM", padNat 2 w.day, w.hour, w.minute] := by simp [FmGroup.text]
  rw [← e] at e1 e2
  have t2 := g2 .day (by simp [Slot.day, Slot.shapes])
  have t3 := g3 .hour (by simp [Slot.hour23, Slot.shapes])
  have t4 := g4 .minute (by simp [Slot.minute, Slot.shapes])
  rw [if_pos rfl] at t2 t3 t4
  exact ⟨m, e1, e2, by rw [t2, day_int], by rw [t3, h1.int], by rw [t4, m1.int]⟩

theorem fm_begin {g : PyStr} {m : Match} (hm : TafRegExp.CHANGE_INDICATOR.match g = some m)
    (hf : startsWith g py!"FM" = true) :
    ∃ (w : FmGroup) (rest : PyStr), w.WF ∧ g = w.text ++ rest ∧ m.string = g ∧
      pyInt (m.group .day) = .ok w.day ∧ pyInt (m.group .hour) = .ok (digitsVal w.hour) ∧
      pyInt (m.group .minute) = .ok (digitsVal w.minute) := by
  have hg := RE.match_string hm
  obtain ⟨p, hp, ts, os, rest, hc, rfl, hcaps, -⟩ := RE.alt_begin_only change_table hm
  simp only [changeSlots, List.mem_cons, List.not_mem_nil, or_false] at hp
  have hhead := startsWith_cons hf
  rcases hp with rfl | rfl | rfl | rfl
  · exfalso
    obtain ⟨t1, _, o1, _, rfl, rfl, h1, hc⟩ := hc.cons_inv
    obtain ⟨rfl, -⟩ := Slot.lit_has.1 h1
    simp at hhead
  · exfalso
    obtain ⟨t1, _, o1, _, rfl, rfl, h1, hc⟩ := hc.cons_inv
    obtain ⟨rfl, -⟩ := Slot.lit_has.1 h1
    simp at hhead
  · obtain ⟨t1, _, o1, _, rfl, rfl, h1, hc⟩ := hc.cons_inv
    obtain ⟨t2, _, o2, _, rfl, rfl, h2, hc⟩ := hc.cons_inv
    obtain ⟨t3, _, o3, _, rfl, rfl, h3, hc⟩ := hc.cons_inv
    obtain ⟨t4, _, o4, _, rfl, rfl, h4, hc⟩ := hc.cons_inv
    obtain ⟨rfl, rfl⟩ := hc.nil_inv
    obtain ⟨rfl, -⟩ := Slot.lit_has.1 h1
    obtain ⟨⟨d, hd, rfl⟩, rfl⟩ := Slot.day_has.1 h2
    obtain ⟨hh, rfl⟩ := Slot.hour23_has.1 h3
    obtain ⟨hmi, rfl⟩ := Slot.minute_has.1 h4
    obtain ⟨-, g2, g3, g4, -⟩ := hcaps
    have t2 := g2 .day (by simp [Slot.day, Slot.shapes])
    have t3 := g3 .hour (by simp [Slot.hour23, Slot.shapes])
    have t4 := g4 .minute (by simp [Slot.minute, Slot.shapes])
    rw [if_pos rfl] at t2 t3 t4
    exact ⟨⟨d, _, _⟩, rest, ⟨hd, hh, hmi⟩, by simp [FmGroup.text], hg, by rw [t2, day_int],
      by rw [t3, hh.int], by rw [t4, hmi.int]⟩
  · exfalso
    obtain ⟨t1, _, o1, _, rfl, rfl, h1, hc⟩ := hc.cons_inv
    obtain ⟨rfl, -⟩ := Slot.lit_has.1 h1
    simp at hhead

theorem fm_time {h n : Nat} {b : DT} (hh : h ≤ 23) (hn : n ≤ 59) (hb : b.valid = true) :
    After (midnight b) (60 * h + n) { b with hour := h, minute := n } := by
  rw [after_iff (midnight_valid hb)]
  constructor
  · rw [DT.valid_iff] at hb ⊢
    exact ⟨hb.1, hh, hn⟩
  · rw [midnight_minutes]
    unfold DT.toMinutes
    simp only
    omega

/-- The start of an FM change. -/
theorem fm_new {w : FmGroup} (hw : w.WF) {m : Match} (hs : startsWith m.string py!"FM" = true)
    (h1 : pyInt (m.group .day) = .ok w.day) (h2 : pyInt (m.group .hour) = .ok (digitsVal w.hour))
    (h3 : pyInt (m.group .minute) = .ok (digitsVal w.minute)) {v : Valid}
    (hv : v.from_.time.valid = true) :
    (∀ i, TafIndicator.new (some m) v = .ok i → w.At v.from_.time i.valid.from_.time ∧
      i.valid.until_ = v.until_ ∧ i.code = some m.string) ∧
    ((∃ u, w.At v.from_.time u) → ∃ i, TafIndicator.new (some m) v = .ok i) := by
  unfold TafIndicator.new
  simp only [hs, if_true, h1, h2, h3, ok_bind]
  constructor
  · intro i hi
    simp only [bind_ok, pure_ok] at hi
    obtain ⟨t, e1, t1, e2, t2, e3, rfl⟩ := hi
    obtain ⟨-, rfl⟩ := replaceHour_ok e2
    obtain ⟨-, rfl⟩ := replaceMinute_ok e3
    refine ⟨⟨midnight t, findDay_first hv e1, ?_⟩, rfl, rfl⟩
    exact fm_time hw.2.1.le hw.2.2.le (findDay_ok hv e1)
  · rintro ⟨u, b, hb, -⟩
    obtain ⟨t, e⟩ := findDay_exists hv hb
    rw [e, ok_bind]
    simp only [DT.replaceHour, DT.replaceMinute, if_pos hw.2.1.le, if_pos hw.2.2.le, ok_bind]
    exact ⟨_, rfl⟩

/-! ### TAF temperatures -/

theorem type_slot (b : Bool) : (Slot.shapes [litShape py!"X", litShape py!"N"] .type).Has
    (if b then py!"X" else py!"N") (some .type) := by
  rw [Slot.shapes_has]
  cases b
  · exact ⟨⟨_, by simp, hasShape_lit py!"N"⟩, rfl⟩
  · exact ⟨⟨_, by simp, hasShape_lit py!"X"⟩, rfl⟩

theorem type_slot_inv {t : PyStr} {o : Option Cap}
    (h : (Slot.shapes [litShape py!"X", litShape py!"N"] .type).Has t o) :
    ∃ b : Bool, t = (if b then py!"X" else py!"N") ∧ o = some .type := by
  rw [Slot.shapes_has] at h
  obtain ⟨⟨ks, hk, hs⟩, ho⟩ := h
  simp only [List.mem_cons, List.not_mem_nil, or_false] at hk
  rcases hk with rfl | rfl
  · exact ⟨true, hasShape_lit_iff.1 hs, ho⟩
  · exact ⟨false, hasShape_lit_iff.1 hs, ho⟩

/-- What a match of the temperature pattern holds. -/
structure Spec.TafTempGroup.In (w : TafTempGroup) (m : Match) : Prop where
  type : m.group .type = some (if w.max then py!"X" else py!"N")
  sign : m.group .sign = if w.minus then some py!"M" else none
  temp : m.group .temp = some w.digits
  day : pyInt (m.group .day) = .ok w.day
  hour : pyInt (m.group .hour) = .ok (digitsVal w.hour)

theorem tafTemp_match (w : TafTempGroup) (h : w.WF) : ∃ m, TafRegExp.TEMPERATURE.match w.text = some m ∧
    m.string = w.text ∧ w.In m := by
  obtain ⟨l1, l2, d1, h1⟩ := h
  have hc : Chosen tafTempSlots [py!"T", if w.max then py!"X" else py!"N", if w.minus then py!"M" else [],
      w.digits, py!"/", padNat 2 w.day, w.hour, py!"Z"]
      [none, some .type, if w.minus then some .sign else none, some .temp, none, some .day, some .hour,
        none] :=
    .cons (lit_slot _) (.cons (type_slot _) (.cons (flag_slot _ _ _) (.cons (digitsN_slot _ _ l1 l2)
      (.cons (lit_slot _) (.cons (Slot.day_has.2 ⟨⟨_, d1, rfl⟩, rfl⟩)
        (.cons (Slot.hour23_has.2 ⟨h1, rfl⟩) (.cons (lit_slot _) .nil)))))))
  obtain ⟨m, e1, e2, ⟨-, g2, g3, g4, -, g6, g7, -⟩, -⟩ :=
    RE.alt_begin_match tafTemp_table (p := (tafTempSlots, [])) (by simp) hc
  have e : w.text = List.flatten [py!"T", if w.max then py!"X" else py!"N",
      if w.minus then py!"M" else [], w.digits, py!"/", padNat 2 w.day, w.hour, py!"Z"] := by
    simp [TafTempGroup.text]
  rw [← e] at e1 e2
  have t2 := g2 .type (by simp [Slot.shapes])
  have t3 := g3 .sign (by simp [Slot.opt])
  have t4 := g4 .temp (by simp [Slot.digits])
  have t6 := g6 .day (by simp [Slot.day, Slot.shapes])
  have t7 := g7 .hour (by simp [Slot.hour23, Slot.shapes])
  rw [flag_group] at t3
  rw [if_pos rfl] at t2 t4 t6 t7
  exact ⟨m, e1, e2, t2, t3, t4, by rw [t6, day_int], by rw [t7, h1.int]⟩

theorem flag_cap {w : PyStr} {c : Cap} {t : PyStr} {o : Option Cap}
    (h : (Slot.opt [w] c).Has t o) :
    ∃ b : Bool, t = (if b then w else []) ∧ o = if b then some c else none := by
  rw [Slot.opt_has] at h
  rcases h with ⟨h, ho⟩ | ⟨rfl, ho⟩
  · simp only [List.mem_cons, List.not_mem_nil, or_false] at h
    exact ⟨true, h, ho⟩
  · exact ⟨false, rfl, ho⟩

theorem tafTemp_begin {g : PyStr} {m : Match} (hm : TafRegExp.TEMPERATURE.match g = some m) :
    ∃ (w : TafTempGroup) (rest : PyStr), w.WF ∧ g = w.text ++ rest ∧ w.In m := by
  obtain ⟨p, hp, ts, os, rest, hc, rfl, hcaps, -⟩ := RE.alt_begin_only tafTemp_table hm
  simp only [List.mem_cons, List.not_mem_nil, or_false] at hp
  subst hp
  obtain ⟨t1, _, o1, _, rfl, rfl, h1, hc⟩ := hc.cons_inv
  obtain ⟨t2, _, o2, _, rfl, rfl, h2, hc⟩ := hc.cons_inv
  obtain ⟨t3, _, o3, _, rfl, rfl, h3, hc⟩ := hc.cons_inv
  obtain ⟨t4, _, o4, _, rfl, rfl, h4, hc⟩ := hc.cons_inv
  obtain ⟨t5, _, o5, _, rfl, rfl, h5, hc⟩ := hc.cons_inv
  obtain ⟨t6, _, o6, _, rfl, rfl, h6, hc⟩ := hc.cons_inv
  obtain ⟨t7, _, o7, _, rfl, rfl, h7, hc⟩ := hc.cons_inv
  obtain ⟨t8, _, o8, _, rfl, rfl, h8, hc⟩ := hc.cons_inv
  obtain ⟨rfl, rfl⟩ := hc.nil_inv
  obtain ⟨rfl, -⟩ := Slot.lit_has.1 h1
  obtain ⟨x, rfl, rfl⟩ := type_slot_inv h2
  obtain ⟨b, rfl, rfl⟩ := flag_cap h3
  have h4' := digitsN_slot_inv h4
  have h4o : o4 = some .temp := (Slot.digits_has.1 h4).2
  subst h4o
  obtain ⟨rfl, -⟩ := Slot.lit_has.1 h5
  obtain ⟨⟨d, hd, rfl⟩, rfl⟩ := Slot.day_has.1 h6
  obtain ⟨hh, rfl⟩ := Slot.hour23_has.1 h7
  obtain ⟨rfl, -⟩ := Slot.lit_has.1 h8
  obtain ⟨-, g2, g3, g4, -, g6, g7, -⟩ := hcaps
  have t2 := g2 .type (by simp [Slot.shapes])
  have t3 := g3 .sign (by simp [Slot.opt])
  have t4 := g4 .temp (by simp [Slot.digits])
  have t6 := g6 .day (by simp [Slot.day, Slot.shapes])
  have t7 := g7 .hour (by simp [Slot.hour23, Slot.shapes])
  rw [flag_group] at t3
  rw [if_pos rfl] at t2 t4 t6 t7
  exact ⟨⟨x, b, _, d, _⟩, rest, ⟨h4'.1, h4'.2, hd, hh⟩, by simp [TafTempGroup.text], t2, t3, t4,
    by rw [t6, day_int], by rw [t7, hh.int]⟩

theorem tafTemp_new {w : TafTempGroup} (hw : w.WF) {m : Match} (hm : w.In m) {t : DT}
    (ht : t.valid = true) :
    (∀ y, tafTagged t m = .ok y → y.1 = w.max ∧ w.Says t y.2 ∧ y.2.code = groupCode (some m.string)) ∧
    ((∃ u, Takes t w.day (digitsVal w.hour) u) → ∃ y, tafTagged t m = .ok y) := by
  obtain ⟨l1, l2, hd, hh⟩ := hw
  have hv : tafTemperature (m.group .temp) (m.group .sign) =
      .ok (some (signed w.minus (digitsVal w.digits))) := by
    rw [hm.temp, hm.sign]
    unfold tafTemperature
    cases w.minus with
    | false => exact temperature_pos l1 l2
    | true => exact temperature_neg l1 l2
  have hmax : decide (m.group .type = some py!"X") = w.max := by
    rw [hm.type]
    cases w.max <;> decide
  unfold tafTagged TafTemperature.new
  simp only [hv, hm.day, hm.hour, DT.replaceMinute, DT.replaceHour, Nat.zero_le, if_true, ok_bind,
    if_pos hh.le, hmax]
  constructor
  · intro y hy
    cases hx : ({ t with minute := 0, hour := digitsVal w.hour } : DT).onDay w.day with
    | error e => rw [hx] at hy; cases hy
    | ok u =>
      rw [hx] at hy
      cases hy
      exact ⟨rfl, ⟨rfl, takes_hour_day ht hh.le hx⟩, rfl⟩
  · rintro ⟨u, hu⟩
    obtain ⟨t', e⟩ := takes_onDay ht hh.le hu
    rw [e]
    exact ⟨_, rfl⟩

end Verif
