import Verif.Lemmas.Periods

/-
Decoding of the period groups of METAR trends.
-/

namespace Verif
open Spec

theorem kind_slot (k : PeriodKind) :
    (Slot.shapes [litShape py!"FM", litShape py!"TL", litShape py!"AT"] .prefix).Has k.text
      (some .prefix) := by
  rw [Slot.shapes_has]
  exact ⟨⟨litShape k.text, by cases k <;> simp [PeriodKind.text], hasShape_lit _⟩, rfl⟩

theorem kind_slot_inv {t : PyStr} {o : Option Cap}
    (h : (Slot.shapes [litShape py!"FM", litShape py!"TL", litShape py!"AT"] .prefix).Has t o) :
    ∃ k : PeriodKind, t = k.text := by
  rw [Slot.shapes_has] at h
  obtain ⟨⟨ks, hk, hs⟩, -⟩ := h
  simp only [List.mem_cons, List.not_mem_nil, or_false] at hk
  rcases hk with rfl | rfl | rfl
  · exact ⟨.from_, hasShape_lit_iff.1 hs⟩
  · exact ⟨.until_, hasShape_lit_iff.1 hs⟩
  · exact ⟨.at_, hasShape_lit_iff.1 hs⟩

theorem period_match (w : PeriodGroup) (h : w.WF) :
    ∃ m, MetarRegExp.TREND_TIME_PERIOD.match w.text = some m ∧ m.string = w.text ∧
      m.group .prefix = some w.kind.text ∧ pyInt (m.group .hour) = .ok (digitsVal w.hour) ∧
      pyInt (m.group .min) = .ok (digitsVal w.minute) := by
  obtain ⟨h1, m1⟩ := h
  have hc : Chosen periodSlots [w.kind.text, w.hour, w.minute] [some .prefix, some .hour, some .min] :=
    .cons (kind_slot _) (.cons ((Slot.hour24_has fun _ => mem_cls01).2 ⟨h1, rfl⟩)
      (.cons (Slot.minute_has.2 ⟨m1, rfl⟩) .nil))
  obtain ⟨m, e1, e2, ⟨g1, g2, g3, -⟩, -⟩ :=
    RE.alt_match period_table (p := (periodSlots, [])) (by simp) hc
  have e : w.text = List.flatten [w.kind.text, w.hour, w.minute] := by simp [PeriodGroup.text]
  rw [← e] at e1 e2
  have t1 := g1 .prefix (by simp [Slot.shapes])
  have t2 := g2 .hour (by simp [Slot.hour24, Slot.shapes])
  have t3 := g3 .min (by simp [Slot.minute, Slot.shapes])
  rw [if_pos rfl] at t1 t2 t3
  exact ⟨m, e1, e2, t1, by rw [t2, h1.int], by rw [t3, m1.int]⟩

theorem period_only {s : PyStr} {m : Match} (hm : MetarRegExp.TREND_TIME_PERIOD.match s = some m)
    (hn : 10 ∉ s) : ∃ w : PeriodGroup, w.WF ∧ s = w.text := by
  obtain ⟨p, hp, ts, os, hc, rfl⟩ := RE.alt_only period_table hm hn
  simp only [List.mem_cons, List.not_mem_nil, or_false] at hp
  subst hp
  obtain ⟨t1, _, o1, _, rfl, rfl, h1, hc⟩ := hc.cons_inv
  obtain ⟨t2, _, o2, _, rfl, rfl, h2, hc⟩ := hc.cons_inv
  obtain ⟨t3, _, o3, _, rfl, rfl, h3, hc⟩ := hc.cons_inv
  obtain ⟨rfl, rfl⟩ := hc.nil_inv
  obtain ⟨k, rfl⟩ := kind_slot_inv h1
  obtain ⟨hh, -⟩ := (Slot.hour24_has fun _ => mem_cls01).1 h2
  obtain ⟨hmi, -⟩ := Slot.minute_has.1 h3
  exact ⟨⟨k, t2, t3⟩, ⟨hh, hmi⟩, by simp [PeriodGroup.text]⟩

/-! ### Instants in the window -/

theorem within_minutes {w : PeriodGroup} {t u : DT} (ht : t.valid = true) (h : w.Within t u) :
    u.valid = true ∧ t.toMinutes ≤ u.toMinutes ∧ u.toMinutes ≤ t.toMinutes + 120 ∧
      u.toMinutes = toOrd u.year u.month u.day * 1440 + digitsVal w.hour * 60 + digitsVal w.minute ∧
      u.hour = digitsVal w.hour ∧ u.minute = digitsVal w.minute := by
  have hu := (isTime_iff _).1 h.exists_
  have m1 := minutes_eq ht
  have m2 := minutes_eq hu
  have := h.notBefore
  have := h.notAfter
  have e := toMinutes_midnight (t := u)
  rw [midnight_minutes, h.hour, h.minute] at e
  exact ⟨hu, by omega, by omega, e, h.hour, h.minute⟩

theorem within_unique {w : PeriodGroup} {t u v : DT} (ht : t.valid = true) (hu : w.Within t u)
    (hv : w.Within t v) : u = v := by
  obtain ⟨h1, h2, h3, h4, -⟩ := within_minutes ht hu
  obtain ⟨k1, k2, k3, k4, -⟩ := within_minutes ht hv
  exact toMinutes_inj h1 k1 (by omega)

theorem periodTime_within {i : TrendIndicator} {t mid u : DT} {w : PeriodGroup} (hi : i.init.time = t)
    (ht : t.valid = true) (he : After t 120 i.end_.time) (hmid : t.addHours 1 = .ok mid)
    (hw : w.Within t u) : i.periodTime mid (digitsVal w.hour) (digitsVal w.minute) = .ok u := by
  obtain ⟨h1, h2, h3, h4, h5, h6⟩ := within_minutes ht hw
  obtain ⟨k1, k2⟩ := (after_iff ht).1 he
  obtain ⟨l1, l2⟩ := addMinutes_ok hmid
  have et := toMinutes_midnight (t := t)
  have em := toMinutes_midnight (t := mid)
  have ee := toMinutes_midnight (t := i.end_.time)
  rw [midnight_minutes] at et em ee
  have vt := ((DT.valid_iff _).1 ht).2
  have vm := ((DT.valid_iff _).1 l1).2
  have ve := ((DT.valid_iff _).1 k1).2
  have vu := ((DT.valid_iff _).1 h1).2
  unfold TrendIndicator.periodTime
  rw [hi]
  split
  · next hh => exact addMinutes_iff.2 ⟨h1, by omega⟩
  · next hh =>
    split
    · next hh2 => exact addMinutes_iff.2 ⟨h1, by omega⟩
    · next hh2 => exact addMinutes_iff.2 ⟨h1, by omega⟩

theorem period_floor {t : DT} (ht : t.valid = true) : ({ t with minute := 0 } : DT).valid = true := by
  rw [DT.valid_iff] at ht ⊢
  exact ⟨ht.1, ht.2.1, by simp⟩

theorem periodTime_takes {i : TrendIndicator} {t mid u : DT} {w : PeriodGroup} (hi : i.init.time = t)
    (ht : t.valid = true) (he : After t 120 i.end_.time) (hmid : t.addHours 1 = .ok mid)
    (h : i.periodTime mid (digitsVal w.hour) (digitsVal w.minute) = .ok u) : w.Takes t u := by
  obtain ⟨k1, k2⟩ := (after_iff ht).1 he
  obtain ⟨l1, l2⟩ := addMinutes_ok hmid
  have et := toMinutes_midnight (t := t)
  have em := toMinutes_midnight (t := mid)
  have ee := toMinutes_midnight (t := i.end_.time)
  have ef := toMinutes_midnight (t := ({ t with minute := 0 } : DT))
  rw [midnight_minutes] at et em ee ef
  simp only at ef
  have vt := ((DT.valid_iff _).1 ht).2
  have vm := ((DT.valid_iff _).1 l1).2
  have ve := ((DT.valid_iff _).1 k1).2
  have hmh : mid.hour = (t.hour + 1) % 24 := by omega
  unfold TrendIndicator.periodTime at h
  rw [hi] at h
  unfold PeriodGroup.Takes
  simp only [after_iff (period_floor ht)]
  split at h
  · next hh =>
    obtain ⟨h1, h2⟩ := addMinutes_iff.1 h
    exact ⟨0, .inl ⟨hh, rfl⟩, h1, by omega⟩
  · next hh =>
    rw [hmh] at h
    split at h
    · next hh2 =>
      obtain ⟨h1, h2⟩ := addMinutes_iff.1 h
      exact ⟨1, .inr (.inl ⟨hh, hh2, rfl⟩), h1, by omega⟩
    · next hh2 =>
      obtain ⟨h1, h2⟩ := addMinutes_iff.1 h
      exact ⟨2, .inr (.inr ⟨hh, hh2, rfl⟩), h1, by omega⟩

/-! ### The trend indicator -/

/-- The time a kind of group sets. -/
def TrendIndicator.timeOf (i : TrendIndicator) : PeriodKind → Option DT
  | .from_ => some i.from_.time
  | .until_ => some i.until_.time
  | .at_ => i.at_.map (·.time)

theorem addPeriod_step {i i' : TrendIndicator} {t : DT} {w : PeriodGroup} (hw : w.WF) {m : Match}
    (hm : MetarRegExp.TREND_TIME_PERIOD.match w.text = some m) (hi : i.init.time = t)
    (ht : t.valid = true) (he : After t 120 i.end_.time) (h : i.addPeriod m = .ok i') :
    i'.init = i.init ∧ i'.end_ = i.end_ ∧ (∀ k, k ≠ w.kind → i'.timeOf k = i.timeOf k) ∧
      (∀ u, w.Within t u → i'.timeOf w.kind = some u) ∧
      ∃ x, i'.timeOf w.kind = some x ∧ w.Takes t x := by
  obtain ⟨m', e1, e2, e3, e4, e5⟩ := period_match w hw
  rw [hm] at e1
  cases e1
  unfold TrendIndicator.addPeriod at h
  simp only [bind_ok] at h
  obtain ⟨c, -, mid, hmid, hr, hhr, mi, hmi, x, hx, h⟩ := h
  rw [e4] at hhr
  cases hhr
  rw [e5] at hmi
  cases hmi
  rw [hi] at hmid
  have hval : ∀ u, w.Within t u → x = u := fun u hu => by
    rw [periodTime_within hi ht he hmid hu] at hx
    cases hx; rfl
  have htk := periodTime_takes hi ht he hmid hx
  rw [e3] at h
  obtain ⟨k, hour, minute⟩ := w
  cases k with
  | from_ =>
    rw [if_pos (by rfl), pure_ok] at h
    subst h
    refine ⟨rfl, rfl, ?_, fun u hu => by rw [← hval u hu]; rfl, x, rfl, htk⟩
    rintro (_ | _ | _) hk
    · exact absurd rfl hk
    · rfl
    · rfl
  | until_ =>
    rw [if_neg (by simp [PeriodKind.text]), if_pos (by rfl), pure_ok] at h
    subst h
    refine ⟨rfl, rfl, ?_, fun u hu => by rw [← hval u hu]; rfl, x, rfl, htk⟩
    rintro (_ | _ | _) hk
    · rfl
    · exact absurd rfl hk
    · rfl
  | at_ =>
    rw [if_neg (by simp [PeriodKind.text]), if_neg (by simp [PeriodKind.text]), pure_ok] at h
    subst h
    refine ⟨rfl, rfl, ?_, fun u hu => by rw [← hval u hu]; rfl, x, rfl, htk⟩
    rintro (_ | _ | _) hk
    · rfl
    · rfl
    · exact absurd rfl hk

theorem period_chain {gs : List PyStr} {i i' : TrendIndicator}
    (h : Spec.Chain (fun g t t' => ∃ m, MetarRegExp.TREND_TIME_PERIOD.match g = some m ∧
      TrendIndicator.addPeriod t m = .ok t') gs i i') (hn : ∀ g ∈ gs, 10 ∉ g) {t : DT}
    (hi : i.init.time = t) (ht : t.valid = true) (he : After t 120 i.end_.time) :
    i'.init = i.init ∧ i'.end_ = i.end_ ∧ (∀ g ∈ gs, ∃ w : PeriodGroup, w.WF ∧ g = w.text) ∧
      ∀ k, (NoneOf k gs → i'.timeOf k = i.timeOf k) ∧
        (∀ w u, LastOf k gs w → w.Within t u → i'.timeOf k = some u) ∧
        ∀ w, LastOf k gs w → ∃ x, i'.timeOf k = some x ∧ w.Takes t x := by
  induction h with
  | nil i =>
    refine ⟨rfl, rfl, by simp, fun k => ⟨fun _ => rfl, ?_, ?_⟩⟩
    · rintro w u ⟨-, -, pre, post, e, -⟩
      simp at e
    · rintro w ⟨-, -, pre, post, e, -⟩
      simp at e
  | @cons g gs i i1 i2 hs _ ih =>
    obtain ⟨m, hm, hs⟩ := hs
    obtain ⟨w0, hw0, rfl⟩ := period_only hm (hn g (by simp))
    obtain ⟨s1, s2, s3, s4⟩ := addPeriod_step hw0 hm hi ht he hs
    obtain ⟨r1, r2, r3, r4⟩ := ih (fun g hg => hn g (by simp [hg])) (by rw [s1]; exact hi)
      (by rw [s2]; exact he)
    refine ⟨r1.trans s1, r2.trans s2, ?_, fun k => ⟨fun hk => ?_, ?_, ?_⟩⟩
    · intro g hg
      rcases List.mem_cons.1 hg with rfl | hg
      · exact ⟨w0, hw0, rfl⟩
      · exact r3 g hg
    · rw [(r4 k).1 fun w hw hg => hk w hw (by simp [hg])]
      exact s3 k (fun e => hk w0 hw0 (by simp) e.symm)
    · rintro w u ⟨hw, hwk, pre, post, e, hpost⟩ hu
      cases pre with
      | nil =>
        simp only [List.nil_append, List.cons.injEq] at e
        obtain ⟨e, rfl⟩ := e
        rw [(r4 k).1 hpost, ← hwk]
        rw [e] at hm
        exact (addPeriod_step hw hm hi ht he hs).2.2.2.1 u hu
      | cons g' pre =>
        simp only [List.cons_append, List.cons.injEq] at e
        obtain ⟨-, e⟩ := e
        exact (r4 k).2.1 w u ⟨hw, hwk, pre, post, e, hpost⟩ hu
    · rintro w ⟨hw, hwk, pre, post, e, hpost⟩
      cases pre with
      | nil =>
        simp only [List.nil_append, List.cons.injEq] at e
        obtain ⟨e, rfl⟩ := e
        rw [(r4 k).1 hpost, ← hwk]
        rw [e] at hm
        exact (addPeriod_step hw hm hi ht he hs).2.2.2.2
      | cons g' pre =>
        simp only [List.cons_append, List.cons.injEq] at e
        obtain ⟨-, e⟩ := e
        exact (r4 k).2.2 w ⟨hw, hwk, pre, post, e, hpost⟩

/-- The indicator at the start. -/
theorem TrendIndicator.new_window {m : Option Match} {t : DT} (ht : t.valid = true) {i : TrendIndicator}
    (h : TrendIndicator.new m t = .ok i) : i.init.time = t ∧ After t 120 i.end_.time ∧
      i.from_ = i.init ∧ i.until_ = i.end_ ∧ i.at_ = none := by
  unfold TrendIndicator.new at h
  simp only [bind_ok, pure_ok] at h
  obtain ⟨⟨c, tr⟩, -, e, h1, rfl⟩ := h
  exact ⟨rfl, (addMinutes_after ht).1 h1, rfl, rfl, rfl⟩

theorem addPeriod_exists {i : TrendIndicator} {t u : DT} {w : PeriodGroup} (hw : w.WF) {m : Match}
    (hm : MetarRegExp.TREND_TIME_PERIOD.match w.text = some m) (hi : i.init.time = t)
    (ht : t.valid = true) (he : After t 120 i.end_.time) (hc : i.code ≠ none) (hu : w.Within t u) :
    ∃ i', i.addPeriod m = .ok i' := by
  obtain ⟨m', e1, e2, e3, e4, e5⟩ := period_match w hw
  rw [hm] at e1
  cases e1
  obtain ⟨k1, k2⟩ := (after_iff ht).1 he
  have r1 := toMinutes_range ht
  have r2 := toMinutes_range k1
  obtain ⟨mid, hv, em⟩ := exists_minutes (n := t.toMinutes + 60) (by omega) (by omega)
  have hmid : t.addHours 1 = .ok mid := addMinutes_iff.2 ⟨hv, by omega⟩
  cases hcode : i.code with
  | none => exact absurd hcode hc
  | some c =>
    unfold TrendIndicator.addPeriod TrendIndicator.extendCode
    rw [hi]
    simp only [hcode, ok_bind, hmid, e4, e5, periodTime_within hi ht he hmid hu]
    split
    · exact ⟨_, rfl⟩
    · split <;> exact ⟨_, rfl⟩

end Verif
