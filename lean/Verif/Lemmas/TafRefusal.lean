import Verif.Spec.TafRefusal
import Verif.Lemmas.Refusal
import Verif.Lemmas.Prefix
import Verif.Lemmas.Periods
import Verif.Lemmas.Report

/-
The first exception of the body of a TAF and of its changes.
-/

namespace Verif
open Spec

/-! ### The visibility of a TAF -/

/-- A visibility that is refused has a form the pattern takes whatever follows. -/
theorem closedForms_mem {w : VisGroup} (hw : tafVisGrammar.WF w) {e : Exc} (he : w.raises = some e) :
    ∃ f ∈ closedForms, Shapes f.1 (VisGroup.pieces w) ∧ FormCaps f (VisGroup.pieces w) w := by
  obtain ⟨hw, hu⟩ := hw
  cases w with
  | cavok => simp [VisGroup.raises] at he
  | metres v d =>
    cases v with
    | undef => exact absurd rfl (hu d)
    | digits ds =>
      cases d with
      | none => simp [VisGroup.raises] at he
      | some d =>
        have hd : HasShape [nsew, ew] d := by
          simp only [VisGroup.raises] at he
          split at he
          · next h => rcases h with rfl | rfl | rfl | rfl <;> exact hasShapeB_sound (by decide)
          · cases he
        refine ⟨([List.replicate 4 .digit, [nsew, ew]], (.vis, some 0) :: (.dir, some 1) :: noRange),
          by simp [closedForms], ⟨hasShape_digits hw.1.2 hw.1.1, hd, trivial⟩,
          metres_caps (dir := some d) rfl rfl⟩
  | range r =>
    obtain ⟨f, hf, h1, h2⟩ := rangeForms_mem r hw
    refine ⟨f, ?_, h1, h2⟩
    have hfr : r.fraction ≠ none := by
      obtain ⟨b, i, j, fr, un⟩ := r
      cases fr with
      | none => cases un <;> simp [VisGroup.raises] at he
      | some _ => simp
    obtain ⟨o, ho, e1⟩ := h2 .fraction (by simp [visCaps])
    simp only [closedForms, List.mem_append, List.mem_filter, List.any_eq_true]
    refine .inr ⟨hf, _, ho, ?_⟩
    simp only [VisGroup.cap] at e1
    cases o with
    | some _ => rfl
    | none =>
      cases hr : r.fraction with
      | none => exact absurd hr hfr
      | some _ => simp [hr] at e1

theorem tafVis_exact_raise {g : PyStr} {m : Match} {o : Option Exc} (h : TafVisRaises g o)
    (hm : TafRegExp.VISIBILITY.match g = some m) :
    (∀ e, o = some e → prevailing m = .error e) ∧ (o = none → ∃ x, prevailing m = .ok x) := by
  rcases h with ⟨w, e, hw, ⟨rest, rfl⟩, he, rfl⟩ | ⟨hall, rfl⟩
  · refine ⟨fun e' h' => ?_, fun h => by cases h⟩
    cases h'
    obtain ⟨f, hf, hs, hc⟩ := closedForms_mem hw he
    obtain ⟨m', h1, h2⟩ := RE.chkP_sound (List.all_eq_true.1 tafVis_closed f hf) hs rest
    rw [VisGroup.pieces_flatten, hm] at h1
    cases h1
    refine (prevailing_value w hw.1 fun c hc' => ?_).1 e he
    obtain ⟨o, ho, e1⟩ := hc c hc'
    rw [h2 _ ho, e1]
  · refine ⟨(fun e' h' => by cases h'), fun _ => ?_⟩
    obtain ⟨w, rest, h1, h2, rfl, h3, h4⟩ := tafVis_begin hm
    obtain ⟨x, hx, -⟩ := h4 (hall w ⟨h1, h2⟩ ⟨rest, rfl⟩)
    exact ⟨x, hx⟩

theorem tafVis_readable (g : PyStr) : ∃ o, TafVisRaises g o := by
  by_cases h : ∃ w e, tafVisGrammar.WF w ∧ w.text <+: g ∧ w.raises = some e
  · obtain ⟨w, e, h1, h2, h3⟩ := h
    exact ⟨some e, .inl ⟨w, e, h1, h2, h3, rfl⟩⟩
  · refine ⟨none, .inr ⟨fun w h1 h2 => ?_, rfl⟩⟩
    cases h3 : w.raises with
    | none => rfl
    | some e => exact absurd ⟨w, e, h1, h2, h3⟩ h

/-! ### Instants that exist -/

/-- The minutes before the year 9999. -/
def lastYear : Nat := 3651695 * 1440

theorem minutes_before {t : DT} (ht : t.valid = true) (hy : t.year ≤ 9998) : t.toMinutes < lastYear := by
  have hv := (DT.valid_iff t).1 ht
  have h1 := (toOrd_year hv.1).2
  have h2 := daysBeforeYear_mono hv.1.1 (Nat.lt_succ_of_le hy)
  have h3 : daysBeforeYear 9999 = 3651694 := by decide
  have := hv.2
  unfold DT.toMinutes lastYear
  rw [Nat.succ_eq_add_one, h3] at h2
  omega

theorem minutes_after {t : DT} (ht : t.valid = true) (hy : 1000 ≤ t.year) : 100 * 1440 ≤ t.toMinutes := by
  have hv := (DT.valid_iff t).1 ht
  have h1 := (toOrd_year hv.1).1
  have h2 := daysBeforeYear_mono (y := 999) (y' := t.year) (by decide) (by omega)
  have h3 : 100 ≤ daysBeforeYear 999 := by decide
  unfold DT.toMinutes
  omega

theorem takes_exists {t : DT} (ht : t.valid = true) (hb : t.toMinutes < lastYear + 10 * 1440) {d h : Nat}
    (hh : h ≤ 24) : ∃ u, Takes t d h u := by
  have h1 := toMinutes_range (midnight_valid ht)
  have h2 := toMinutes_midnight (t := t)
  have : (midnight t).toMinutes + (if d = t.day then 0 else 1440) + 60 * h < (maxOrdinal + 1) * 1440 := by
    unfold maxOrdinal lastYear at *
    split <;> omega
  obtain ⟨u, hu, eu⟩ := exists_minutes (n := (midnight t).toMinutes + (if d = t.day then 0 else 1440) + 60 * h)
    (by omega) this
  exact ⟨u, (takes_iff ht).2 ⟨hu, eu⟩⟩

theorem takes_minutes {t u : DT} (ht : t.valid = true) {d h : Nat} (hh : h ≤ 24) (hu : Takes t d h u) :
    u.valid = true ∧ t.toMinutes < u.toMinutes + 1440 ∧ u.toMinutes ≤ t.toMinutes + 2880 := by
  obtain ⟨h1, h2⟩ := (takes_iff ht).1 hu
  have h3 := toMinutes_midnight (t := t)
  have h4 := (DT.valid_iff t).1 ht
  refine ⟨h1, ?_, ?_⟩ <;> split at h2 <;> omega

/-- A valid period that is read of a report issued at `t`. -/
theorem valid_exists {t : DT} (ht : t.valid = true) (hb : t.toMinutes < lastYear + 10 * 1440) {g : PyStr}
    {m : Match} (hm : TafRegExp.VALID.match g = some m) (hn : 10 ∉ g) :
    ∃ v, Valid.fromTaf (some m) t = .ok v ∧ v.from_.time.valid = true ∧
      t.toMinutes < v.from_.time.toMinutes + 1440 ∧ v.from_.time.toMinutes ≤ t.toMinutes + 2880 := by
  obtain ⟨w, hw, rfl⟩ := valid_only hm hn
  obtain ⟨m', h1, -, h2⟩ := valid_match w hw
  rw [hm] at h1
  cases h1
  have e1 : digitsVal w.fromHour ≤ 23 := by obtain ⟨_, _, _, _, _, h, _⟩ := hw.2.1; exact h
  have e2 : digitsVal w.untilHour ≤ 24 := by obtain ⟨_, _, _, _, _, h, _⟩ := hw.2.2.2; exact h
  obtain ⟨f, hf⟩ := takes_exists ht hb (d := w.fromDay) (h := digitsVal w.fromHour) (by omega)
  obtain ⟨u, hu⟩ := takes_exists ht hb (d := w.untilDay) (h := digitsVal w.untilHour) e2
  obtain ⟨v, hv⟩ := Valid.fromTaf_exists h2 e1 e2 ht hf hu
  exact ⟨v, hv, takes_minutes ht (by omega) (Valid.fromTaf_takes h2 ht hv).1⟩

/-- The temperature of a report issued at `t`. -/
theorem tafTemp_exists {t : DT} (ht : t.valid = true) (hb : t.toMinutes < lastYear + 10 * 1440) {g : PyStr}
    {m : Match} (hm : TafRegExp.TEMPERATURE.match g = some m) :
    ∃ x, TafTemperature.new m t = .ok x ∧
      (m.group .type = some py!"X" ↔ g.take 2 = py!"TX") ∧ (g.take 2 = py!"TX" ∨ g.take 2 = py!"TN") := by
  obtain ⟨w, rest, hw, rfl, hi⟩ := tafTemp_begin hm
  have e1 : digitsVal w.hour ≤ 23 := by obtain ⟨_, _, _, _, _, h, _⟩ := hw.2.2.2; exact h
  obtain ⟨u, hu⟩ := takes_exists ht hb (d := w.day) (h := digitsVal w.hour) (by omega)
  obtain ⟨y, hy⟩ := (tafTemp_new hw hi ht).2 ⟨u, hu⟩
  unfold tafTagged at hy
  cases hx : TafTemperature.new m t with
  | error e => rw [hx] at hy; cases hy
  | ok x =>
    refine ⟨x, rfl, ?_, ?_⟩
    · rw [hi.type]
      cases hmax : w.max <;> simp [TafTempGroup.text, hmax]
    · cases hmax : w.max <;> simp [TafTempGroup.text, hmax]

/-- The default period. -/
theorem valid_none_exists {t : DT} (ht : t.valid = true) (hb : t.toMinutes < lastYear) :
    ∃ v, Valid.fromTaf none t = .ok v ∧ v.from_.time.valid = true ∧
      t.toMinutes ≤ v.from_.time.toMinutes + 60 ∧ v.from_.time.toMinutes ≤ t.toMinutes + 60 := by
  have hv := (DT.valid_iff t).1 ht
  have h0 : ({ t with minute := 0 } : DT).valid = true := (DT.valid_iff _).2 ⟨hv.1, hv.2.1, by simp⟩
  have e0 : ({ t with minute := 0 } : DT).toMinutes + t.minute = t.toMinutes := by simp [DT.toMinutes]
  have r := toMinutes_range ht
  obtain ⟨u, hu, eu⟩ := exists_minutes (n := ({ t with minute := 0 } : DT).toMinutes + 60) (by omega)
    (by unfold maxOrdinal lastYear at *; omega)
  obtain ⟨u2, hu2, eu2⟩ := exists_minutes (n := u.toMinutes + 1440) (by omega)
    (by unfold maxOrdinal lastYear at *; omega)
  have h1 : ({ t with minute := 0 } : DT).addHours 1 = .ok u := addMinutes_iff.2 ⟨hu, by omega⟩
  have h2 : u.addHours 24 = .ok u2 := addMinutes_iff.2 ⟨hu2, by omega⟩
  refine ⟨⟨none, Time.ofDT u, Time.ofDT u2⟩, ?_, hu, ?_, ?_⟩
  · unfold Valid.fromTaf DT.replaceMinute
    simp only [Nat.zero_le, if_true, ok_bind, h1, h2]
    rfl
  · show t.toMinutes ≤ u.toMinutes + 60
    omega
  · show u.toMinutes ≤ t.toMinutes + 60
    omega

/-- There is a day with any number after `t`. -/
theorem findDay_any {t : DT} (ht : t.valid = true) (hb : t.toMinutes < lastYear + 10 * 1440) {d : Nat}
    (hd : IsDay d) : ∃ t', findDay d (maxOrdinal + 1) t = .ok t' ∧ t'.valid = true ∧
      t.toMinutes ≤ t'.toMinutes := by
  have hv := (DT.valid_iff t).1 ht
  have r := toMinutes_range ht
  have hlast : ({ year := 9999, month := 12, day := d, hour := t.hour, minute := t.minute } : DT).valid =
      true := (DT.valid_iff _).2 ⟨⟨by simp, by simp, by simp, by simp, hd.1, hd.2⟩, hv.2⟩
  have e : toOrd 9999 12 d = 3652028 + d := by
    unfold toOrd
    rw [show daysBeforeYear 9999 = 3651694 by decide, show daysBeforeMonth 9999 12 = 334 by decide]
  have em : t.toMinutes = toOrd t.year t.month t.day * 1440 + t.hour * 60 + t.minute := rfl
  have hlt : toOrd t.year t.month t.day ≤ 3651705 := by unfold lastYear at hb; omega
  obtain ⟨t', h⟩ := findDay_finds ht (d := d) (f := maxOrdinal + 1)
    (j := 3652028 + d - toOrd t.year t.month t.day) hlast
    (by simp only [DT.toMinutes, e]; omega) rfl (by unfold maxOrdinal; have := hd.2; omega)
  obtain ⟨h1, -, k, h2, -⟩ := findDay_steps ht h
  exact ⟨t', h, h1, by omega⟩

/-! ### The body -/

/-- What is known of a TAF while the groups `c` of its body are read and `rest` is left. -/
structure TafLeft (c rest : List (PyStr × Nat)) (r : Taf) : Prop where
  room : Left TafRoom rest r
  valid : r.time.time.valid = true
  before : r.time.time.toMinutes < lastYear
  after : 100 * 1440 ≤ r.time.time.toMinutes
  period : r.valid.from_.time.valid = true
  periodBefore : r.valid.from_.time.toMinutes < lastYear + 2 * 1440
  periodAfter : 98 * 1440 ≤ r.valid.from_.time.toMinutes
  max : r.maxTemperatures.max = 2
  min : r.minTemperatures.max = 2
  count : ∃ done, c = done ++ rest ∧
    r.maxTemperatures.list.length =
      (done.filter fun y => decide (16 ≤ y.2) && y.1.take 2 == py!"TX").length ∧
    r.minTemperatures.list.length =
      (done.filter fun y => decide (16 ≤ y.2) && y.1.take 2 == py!"TN").length

/-- The groups before `x` are those at lower positions. -/
theorem sameBefore_eq {done rest : List (PyStr × Nat)} {g : PyStr} {k : Nat}
    (ho : Ordered (done ++ (g, k) :: rest)) :
    sameBefore (done ++ (g, k) :: rest) g k =
      done.filter fun y => decide (16 ≤ y.2) && y.1.take 2 == g.take 2 := by
  obtain ⟨h1, h2, h3⟩ := List.pairwise_append.1 ho
  unfold sameBefore
  rw [List.filter_append]
  have e : (((g, k) :: rest).filter fun y =>
      decide (16 ≤ y.2) && decide (y.2 < k) && y.1.take 2 == g.take 2) = [] := by
    rw [List.filter_eq_nil_iff]
    intro y hy
    have : ¬ y.2 < k := by
      rcases List.mem_cons.1 hy with rfl | hy
      · exact Nat.lt_irrefl _
      · have : k < y.2 := (List.pairwise_cons.1 h2).1 y hy
        omega
    simp [this]
  rw [e, List.append_nil]
  refine List.filter_congr fun y hy => ?_
  have : y.2 < k := h3 y hy (g, k) (by simp)
  simp [this]

/-- A group that is no temperature keeps what is known. -/
theorem TafLeft.keep {c rest : List (PyStr × Nat)} {x : PyStr × Nat} {r s : Taf}
    (h : TafLeft c (x :: rest) r) (ho : Ordered (x :: rest)) (hx : x.2 < 16) (hr : TafRoom (x.2 + 1) s)
    (ht : s.time.time.valid = true ∧ s.time.time.toMinutes < lastYear ∧ 100 * 1440 ≤ s.time.time.toMinutes)
    (hv : s.valid.from_.time.valid = true ∧ s.valid.from_.time.toMinutes < lastYear + 2 * 1440 ∧
      98 * 1440 ≤ s.valid.from_.time.toMinutes)
    (h1 : s.maxTemperatures = r.maxTemperatures) (h2 : s.minTemperatures = r.minTemperatures) :
    TafLeft c rest s := by
  refine ⟨Left.next ho hr, ht.1, ht.2.1, ht.2.2, hv.1, hv.2.1, hv.2.2, by rw [h1, h.max],
    by rw [h2, h.min], ?_⟩
  obtain ⟨done, e1, e2, e3⟩ := h.count
  have : ∀ p : PyStr, ([x].filter fun y => decide (16 ≤ y.2) && y.1.take 2 == p) = [] := by
    intro p
    have : ¬ 16 ≤ x.2 := by omega
    simp [this]
  refine ⟨done ++ [x], by simp [e1], ?_, ?_⟩
  · rw [List.filter_append, this, List.append_nil, h1, e2]
  · rw [List.filter_append, this, List.append_nil, h2, e3]

theorem TafLeft.times {c rest : List (PyStr × Nat)} {r : Taf} (h : TafLeft c rest r) :
    r.time.time.valid = true ∧ r.time.time.toMinutes < lastYear ∧ 100 * 1440 ≤ r.time.time.toMinutes :=
  ⟨h.valid, h.before, h.after⟩

theorem TafLeft.early {c rest : List (PyStr × Nat)} {r : Taf} (h : TafLeft c rest r) :
    r.time.time.toMinutes < lastYear + 10 * 1440 := Nat.lt_of_lt_of_le h.before (Nat.le_add_right _ _)

theorem TafLeft.periods {c rest : List (PyStr × Nat)} {r : Taf} (h : TafLeft c rest r) :
    r.valid.from_.time.valid = true ∧ r.valid.from_.time.toMinutes < lastYear + 2 * 1440 ∧
      98 * 1440 ≤ r.valid.from_.time.toMinutes :=
  ⟨h.period, h.periodBefore, h.periodAfter⟩

theorem temp_step {c rest : List (PyStr × Nat)} (hoc : Ordered c) {g : PyStr} {k : Nat} (hk : 16 ≤ k)
    (ho : Ordered ((g, k) :: rest)) {m : Match} (hm : TafRegExp.TEMPERATURE.match g = some m) {s : Taf}
    (hl : TafLeft c ((g, k) :: rest) s) :
    (2 ≤ (sameBefore c g k).length → Taf.handleTemperature m s = .error .range) ∧
    (¬ 2 ≤ (sameBefore c g k).length → ∃ s', Taf.handleTemperature m s = .ok s' ∧ TafLeft c rest s') := by
  obtain ⟨x, hx, h1, h2⟩ := tafTemp_exists hl.valid hl.early hm
  have hroom := hl.room.at fun _ _ h => TafRoom.mono h
  obtain ⟨done, e1, e2, e3⟩ := hl.count
  have hlast : ∀ p : PyStr, ((done ++ [(g, k)]).filter fun y => decide (16 ≤ y.2) && y.1.take 2 == p).length =
      (done.filter fun y => decide (16 ≤ y.2) && y.1.take 2 == p).length + if g.take 2 = p then 1 else 0 := by
    intro p
    rw [List.filter_append, List.length_append]
    by_cases hp : g.take 2 = p <;> simp [hp, hk]
  rw [e1, sameBefore_eq (by rw [← e1]; exact hoc)]
  unfold Taf.handleTemperature
  rw [hx, ok_bind]
  by_cases hX : g.take 2 = py!"TX"
  · rw [if_pos (h1.2 hX), hX, ← e2]
    unfold GroupList.add
    rw [hl.max]
    constructor
    · intro hge
      rw [if_pos (by omega)]; rfl
    · intro hlt
      rw [if_neg (by omega)]
      refine ⟨_, rfl, Left.next ho ⟨⟨hroom.1.1.mono, hroom.1.2.mono⟩⟩, hl.valid, hl.before, hl.after,
        hl.period, hl.periodBefore, hl.periodAfter, rfl, hl.min, done ++ [(g, k)], by simp, ?_, ?_⟩
      · rw [hlast, if_pos hX, ← e2]
        simp [Taf.concat]
      · rw [hlast, if_neg (by rw [hX]; decide), ← e3]
        rfl
  · have hN := h2.resolve_left hX
    rw [if_neg (fun h => hX (h1.1 h)), hN, ← e3]
    unfold GroupList.add
    rw [hl.min]
    constructor
    · intro hge
      rw [if_pos (by omega)]; rfl
    · intro hlt
      rw [if_neg (by omega)]
      refine ⟨_, rfl, Left.next ho ⟨⟨hroom.1.1.mono, hroom.1.2.mono⟩⟩, hl.valid, hl.before, hl.after,
        hl.period, hl.periodBefore, hl.periodAfter, hl.max, rfl, done ++ [(g, k)], by simp, ?_, ?_⟩
      · rw [hlast, if_neg hX, ← e2]
        rfl
      · rw [hlast, if_pos hN, ← e3]
        simp [Taf.concat]

theorem taf_step {db : Database} {now : Now} {a : Args} {y mo : Nat}
    (hy : a.year.getD now.year = (y : Int)) (hmo : a.month.getD now.month = (mo : Int))
    (hy1 : 1000 ≤ y) (hy2 : y ≤ 9998) (hm1 : 1 ≤ mo) (hm2 : mo ≤ 12)
    {c rest : List (PyStr × Nat)} (hoc : Ordered c) {x : PyStr × Nat} (ho : Ordered (x :: rest))
    (hn : 10 ∉ x.1) {o : Option Exc} (hx : TafRaises y mo c x o)
    {h : Handler Taf} {m : Match} {s : Taf} (hh : (Taf.handlers db now a)[x.2]? = some h)
    (hm : h.regexp.match x.1 = some m) (hl : TafLeft c (x :: rest) s) :
    (∀ e, o = some e → h.run m s = .error e) ∧
      (o = none → ∃ s', h.run m s = .ok s' ∧ TafLeft c rest s') := by
  obtain ⟨g, k⟩ := x
  have hroom := hl.room.at fun _ _ h => TafRoom.mono h
  -- a handler of the shared attributes
  have hlift : ∀ f : Match → Core → Except Exc Core, k < 16 → h.run = Taf.lift f →
      Post (fun _ => False) (CoreRoom 9 12 (k + 1)) (f m s.core) →
      ∃ s', h.run m s = .ok s' ∧ TafLeft c rest s' := by
    intro f hk hf hp
    obtain ⟨x, hx, hp⟩ := Post.never hp
    refine ⟨{ s with core := x }, ?_, hl.keep ho hk ⟨hp⟩ hl.times hl.periods rfl rfl⟩
    rw [hf]
    exact liftCore_ok.2 ⟨x, hx, rfl⟩
  have hnone : k < 16 → k ≠ 3 → k ≠ 8 → o = none := fun h1 h2 h3 => by
    have : ¬ 16 ≤ k := by omega
    simpa [TafRaises, h2, h3, this] using hx
  have hfine : o = none → (∃ s', h.run m s = .ok s' ∧ TafLeft c rest s') →
      (∀ e, o = some e → h.run m s = .error e) ∧
      (o = none → ∃ s', h.run m s = .ok s' ∧ TafLeft c rest s') :=
    fun h1 h2 => ⟨(fun e he => by rw [h1] at he; cases he), fun _ => h2⟩
  have hweather : 9 ≤ k → k < 12 → h = ⟨MetarRegExp.WEATHER, Taf.lift Core.handleWeather⟩ →
      (∀ e, o = some e → h.run m s = .error e) ∧
      (o = none → ∃ s', h.run m s = .ok s' ∧ TafLeft c rest s') := by
    rintro h1 h2 rfl
    exact hfine (hnone (by omega) (by omega) (by omega)) (hlift _ (by omega) rfl
      (weather_post hroom.core h1 h2))
  have hcloud : 12 ≤ k → k < 16 → h = ⟨MetarRegExp.CLOUD, Taf.lift Core.handleCloud⟩ →
      (∀ e, o = some e → h.run m s = .error e) ∧
      (o = none → ∃ s', h.run m s = .ok s' ∧ TafLeft c rest s') := by
    rintro h1 h2 rfl
    exact hfine (hnone (by omega) (by omega) (by omega)) (hlift _ (by omega) rfl
      (cloud_post hm hroom.core h1 h2))
  have htemp : 16 ≤ k → h = ⟨TafRegExp.TEMPERATURE, Taf.handleTemperature⟩ →
      (∀ e, o = some e → h.run m s = .error e) ∧
      (o = none → ∃ s', h.run m s = .ok s' ∧ TafLeft c rest s') := by
    rintro h1 rfl
    obtain ⟨t1, t2⟩ := temp_step hoc h1 ho hm hl
    simp only [TafRaises] at hx
    rw [if_neg (by omega), if_neg (by omega)] at hx
    split at hx
    · next h => subst hx; exact ⟨fun e he => by cases he; exact t1 h.2, fun he => by cases he⟩
    · next h => exact hfine hx (t2 fun h' => h ⟨h1, h'⟩)
  have hcore : TafRoom (k + 1) s := ⟨hroom.1.mono⟩
  simp only at hh hm hn
  match k, hh with
  | 0, hh =>
    cases hh
    exact hfine (hnone (by omega) (by omega) (by omega)) ⟨_, rfl, hl.keep ho (by simp)
      ⟨⟨hcore.1.1, hcore.1.2⟩⟩ hl.times hl.periods rfl rfl⟩
  | 1, hh =>
    cases hh
    exact hfine (hnone (by omega) (by omega) (by omega)) ⟨_, rfl, hl.keep ho (by simp)
      ⟨⟨hcore.1.1, hcore.1.2⟩⟩ hl.times hl.periods rfl rfl⟩
  | 2, hh =>
    cases hh
    exact hfine (hnone (by omega) (by omega) (by omega)) ⟨_, rfl, hl.keep ho (by simp)
      ⟨⟨hcore.1.1, hcore.1.2⟩⟩ hl.times hl.periods rfl rfl⟩
  | 3, hh =>
    cases hh
    simp only [TafRaises, if_true] at hx
    obtain ⟨d, h, i, e, l1, l2, l3, hv⟩ := hx
    obtain ⟨d', h', i', e', k1, k2, k3, -, -, -, v1, v2⟩ :=
      Props.time_value hy hmo hy1 (by omega) hm1 hm2 hm hn
    obtain ⟨rfl, rfl, rfl⟩ := append_three (e.symm.trans e') (by omega) (by omega)
    rcases hv with ⟨hv, rfl⟩ | ⟨hv, rfl⟩
    · have e1 : Taf.handleTime now a m s = .ok (Taf.concat { s with
          time := ⟨groupCode (some g), ⟨y, mo, digitsVal d, digitsVal h, digitsVal i⟩⟩ }
          (Time.str ⟨groupCode (some g), ⟨y, mo, digitsVal d, digitsVal h, digitsVal i⟩⟩)) := by
        unfold Taf.handleTime
        rw [v1 hv]; rfl
      refine hfine rfl ⟨_, e1, hl.keep ho (by simp)
        ⟨⟨hcore.1.1, hcore.1.2⟩⟩ ?_ hl.periods rfl rfl⟩
      have hvalid := (isTime_iff _).1 hv
      exact ⟨hvalid, minutes_before hvalid hy2, minutes_after hvalid hy1⟩
    · refine ⟨fun e he => ?_, fun he => by cases he⟩
      cases he
      simp only [Taf.handleTime, v2 hv]; rfl
  | 4, hh =>
    cases hh
    exact hfine (hnone (by omega) (by omega) (by omega)) ⟨_, rfl, hl.keep ho (by simp)
      ⟨⟨hcore.1.1, hcore.1.2⟩⟩ hl.times hl.periods rfl rfl⟩
  | 5, hh =>
    cases hh
    obtain ⟨v, hv, b1, b2, b3⟩ := valid_exists hl.valid hl.early hm hn
    have := hl.before
    have := hl.after
    have e1 : Taf.handleValid m s = .ok (Taf.concat { s with valid := v } v.str) := by
      unfold Taf.handleValid
      rw [hv]; rfl
    exact hfine (hnone (by omega) (by omega) (by omega)) ⟨_, e1, hl.keep ho (by simp)
      ⟨⟨hcore.1.1, hcore.1.2⟩⟩ hl.times
      ⟨b1, show v.from_.time.toMinutes < _ by omega, show _ ≤ v.from_.time.toMinutes by omega⟩ rfl rfl⟩
  | 6, hh =>
    cases hh
    exact hfine (hnone (by omega) (by omega) (by omega)) ⟨_, rfl, hl.keep ho (by simp)
      ⟨⟨hcore.1.1, hcore.1.2⟩⟩ hl.times hl.periods rfl rfl⟩
  | 7, hh =>
    cases hh
    exact hfine (hnone (by omega) (by omega) (by omega)) (hlift _ (by omega) rfl
      (wind_post windLike_taf hm hroom.core))
  | 8, hh =>
    cases hh
    simp only [TafRaises] at hx
    rw [if_neg (by omega), if_pos trivial] at hx
    have hv := tafVis_exact_raise hx hm
    constructor
    · intro e he
      simp only [Taf.lift, liftCore_error]
      unfold Core.handlePrevailing
      rw [hv.1 e he]; rfl
    · intro he
      exact hlift _ (by omega) rfl (prevailing_post (Raises.of_ok (hv.2 he)) hroom.core)
  | 9, hh => cases hh; exact hweather (by omega) (by omega) rfl
  | 10, hh => cases hh; exact hweather (by omega) (by omega) rfl
  | 11, hh => cases hh; exact hweather (by omega) (by omega) rfl
  | 12, hh => cases hh; exact hcloud (by omega) (by omega) rfl
  | 13, hh => cases hh; exact hcloud (by omega) (by omega) rfl
  | 14, hh => cases hh; exact hcloud (by omega) (by omega) rfl
  | 15, hh => cases hh; exact hcloud (by omega) (by omega) rfl
  | 16, hh => cases hh; exact htemp (by omega) rfl
  | 17, hh => cases hh; exact htemp (by omega) rfl
  | 18, hh => cases hh; exact htemp (by omega) rfl
  | 19, hh => cases hh; exact htemp (by omega) rfl
  | k + 20, hh => cases hh

/-- The body of a TAF ends with the first exception of its groups. -/
theorem Taf.body_exact {db : Database} {now : Now} {a : Args} {y mo : Nat}
    (hy : a.year.getD now.year = (y : Int)) (hmo : a.month.getD now.month = (mo : Int))
    (hy1 : 1000 ≤ y) (hy2 : y ≤ 9998) (hm1 : 1 ≤ mo) (hm2 : mo ≤ 12)
    {text : PyStr} (hn : 10 ∉ text) {r : Taf} {c : List (PyStr × Nat)} (h0 : TafLeft c c r)
    (hc : Decodes (Taf.handlers db now a) (splitC 32 text) c) {os : List (Option Exc)}
    (hE : Each (TafRaises y mo c) c os) :
    (∀ e, firstOf os = some e → parseSection (Taf.handlers db now a) text r = .error e) ∧
    (firstOf os = none → ∃ r' un, parseSection (Taf.handlers db now a) text r = .ok (r', un) ∧
      TafLeft c [] r') := by
  have hoc : Ordered c := by
    rw [(decodes_iff _ _ _).1 hc]; exact consumed_ordered
  have hE' : Each (fun x o => 10 ∉ x.1 ∧ TafRaises y mo c x o) c os :=
    Each.map_mem hE fun x hx o h => ⟨by
      rw [(decodes_iff _ _ _).1 hc] at hx
      exact not_mem_splitC hn x.1 (consumed_mem hx), h⟩
  exact parseSection_exact (s := r) hc hE' (P := TafLeft c) h0
    fun x rest ho o hx h m s hh hm hl => taf_step hy hmo hy1 hy2 hm1 hm2 hoc ho hx.1 hx.2 hh hm hl

/-! ### Changes -/

theorem startsWith_iff {s p : PyStr} : startsWith s p = true ↔ p <+: s := by
  unfold startsWith; exact List.isPrefixOf_iff_prefix

/-- The texts by which changes are told apart. -/
def heads : List PyStr := [py!"FM", py!"PROB", py!"TEMPO"]

/-- The code `t` of an indicator begins like its group `g`. -/
def SameHead (g t : PyStr) : Prop := 5 ≤ t.length ∧ ∀ p ∈ heads, (p <+: t ↔ p <+: g)

theorem prefix_shown {p : PyStr} (hp : ∀ c ∈ p, c ≠ 32 ∧ c ≠ 95) (g : PyStr) : p <+: shown g ↔ p <+: g := by
  induction p generalizing g with
  | nil => simp
  | cons c p ih =>
    cases g with
    | nil => simp [shown]
    | cons x g =>
      have h := hp c (by simp)
      simp only [shown, List.map_cons, List.cons_prefix_cons]
      rw [show (List.map (fun c => if c = 95 then 32 else c) g) = shown g from rfl,
        ih (fun c hc => hp c (by simp [hc]))]
      refine and_congr_left fun _ => ?_
      split
      · next hx => subst hx; exact ⟨fun e => absurd e h.1, fun e => absurd e h.2⟩
      · exact Iff.rfl

theorem change_length {g : PyStr} {m : Match} (hm : TafRegExp.CHANGE_INDICATOR.match g = some m) :
    5 ≤ g.length := by
  obtain ⟨p, hp, ts, os, rest, hc, rfl, -, -⟩ := RE.alt_begin_only change_table hm
  simp only [changeSlots, List.mem_cons, List.not_mem_nil, or_false] at hp
  rcases hp with rfl | rfl | rfl | rfl
  · obtain ⟨t1, _, o1, _, rfl, rfl, h1, hc⟩ := hc.cons_inv
    obtain ⟨rfl, -⟩ := Slot.lit_has.1 h1
    simp
  · obtain ⟨t1, _, o1, _, rfl, rfl, h1, hc⟩ := hc.cons_inv
    obtain ⟨rfl, -⟩ := Slot.lit_has.1 h1
    simp
  · obtain ⟨t1, _, o1, _, rfl, rfl, h1, hc⟩ := hc.cons_inv
    obtain ⟨t2, _, o2, _, rfl, rfl, h2, hc⟩ := hc.cons_inv
    obtain ⟨t3, _, o3, _, rfl, rfl, h3, hc⟩ := hc.cons_inv
    obtain ⟨t4, _, o4, _, rfl, rfl, h4, hc⟩ := hc.cons_inv
    obtain ⟨rfl, -⟩ := Slot.lit_has.1 h1
    obtain ⟨hh, -⟩ := Slot.hour23_has.1 h3
    obtain ⟨hmi, -⟩ := Slot.minute_has.1 h4
    obtain ⟨_, _, rfl, -⟩ := hh
    obtain ⟨_, _, rfl, -⟩ := hmi
    simp
    omega
  · obtain ⟨t1, _, o1, _, rfl, rfl, h1, hc⟩ := hc.cons_inv
    obtain ⟨t2, _, o2, _, rfl, rfl, h2, hc⟩ := hc.cons_inv
    obtain ⟨rfl, -⟩ := Slot.lit_has.1 h1
    have : t2.length = 1 := by
      obtain ⟨q, hq, h2⟩ := h2
      simp only [List.mem_singleton] at hq
      subst hq
      exact h2.1.length
    simp
    omega

theorem heads_short {p : PyStr} (hp : p ∈ heads) : p.length ≤ 5 ∧ ∀ c ∈ p, c ≠ 32 ∧ c ≠ 95 := by
  revert p
  decide

theorem SameHead.of_group {g : PyStr} {m : Match} (hm : TafRegExp.CHANGE_INDICATOR.match g = some m) :
    SameHead g g ∧ SameHead g (shown g) := by
  have := change_length hm
  exact ⟨⟨this, fun _ _ => Iff.rfl⟩, by simpa [shown] using this,
    fun p hp => prefix_shown (heads_short hp).2 g⟩

theorem SameHead.append {g t : PyStr} (h : SameHead g t) (u : PyStr) : SameHead g (t ++ u) := by
  refine ⟨by simp; have := h.1; omega, fun p hp => ?_⟩
  rw [← h.2 p hp]
  constructor
  · intro hpre
    exact List.prefix_of_prefix_length_le hpre (List.prefix_append t u)
      (Nat.le_trans (heads_short hp).1 h.1)
  · exact fun hpre => hpre.trans (List.prefix_append t u)

/-- The code of the indicator of a change with the groups `c`. -/
def IndicatorOf (c : List (PyStr × Nat)) (code : Option PyStr) : Prop :=
  (∃ g t, (g, 0) ∈ c ∧ code = some t ∧ SameHead g t) ∨ ((∀ g, (g, 0) ∉ c) ∧ code = none)

/-- What is known of a change while the groups `c` are read and `rest` is left. -/
structure ChangeLeft (v : Valid) (code : PyStr) (c rest : List (PyStr × Nat)) (p : ChangeForecasted) : Prop where
  room : Left (fun k (p : ChangeForecasted) => CoreRoom 4 7 k p.core) rest p
  code : p.code = code
  period : p.valid = v
  valid : p.indicator.valid.from_.time.valid = true
  after : 96 * 1440 ≤ p.indicator.valid.from_.time.toMinutes
  indicator : (∃ g, (g, 0) ∈ rest) ∨ IndicatorOf c p.indicator.code

/-- The indicator of a change. -/
theorem TafIndicator.new_exact {v : Valid} (hv : v.from_.time.valid = true)
    (hb : v.from_.time.toMinutes < lastYear + 2 * 1440) (ha : 98 * 1440 ≤ v.from_.time.toMinutes)
    {g : PyStr} {m : Match} (hm : TafRegExp.CHANGE_INDICATOR.match g = some m) (hg : 10 ∉ g) :
    ∃ i t, TafIndicator.new (some m) v = .ok i ∧ i.code = some t ∧ SameHead g t ∧
      i.valid.from_.time.valid = true ∧ 96 * 1440 ≤ i.valid.from_.time.toMinutes := by
  have hs := RE.match_string hm
  obtain ⟨s1, s2⟩ := SameHead.of_group hm
  unfold TafIndicator.new
  simp only
  split
  · next hf =>
    rw [hs] at hf
    obtain ⟨w, rest, hw, -, -, e1, e2, e3⟩ := fm_begin hm hf
    have b1 : digitsVal w.hour ≤ 23 := by obtain ⟨_, _, _, _, _, h, _⟩ := hw.2.1; exact h
    have b2 : digitsVal w.minute ≤ 59 := by obtain ⟨_, _, _, _, _, h⟩ := hw.2.2; exact h
    obtain ⟨t, ht, k1, k2⟩ := findDay_any hv (Nat.lt_of_lt_of_le hb (by omega)) hw.1
    have hv' := (DT.valid_iff t).1 k1
    refine ⟨⟨some m.string, some (Valid.str ⟨none, Time.ofDT { t with hour := digitsVal w.hour, minute := digitsVal w.minute },
      v.until_⟩), ⟨none, Time.ofDT { t with hour := digitsVal w.hour, minute := digitsVal w.minute },
      v.until_⟩⟩, g, ?_, by rw [hs], s1, ?_, ?_⟩
    · rw [e1, ok_bind, e2, ok_bind, e3, ok_bind, ht, ok_bind]
      unfold DT.replaceHour
      rw [if_pos b1, ok_bind]
      unfold DT.replaceMinute
      rw [if_pos b2]
      rfl
    · exact (DT.valid_iff _).2 ⟨hv'.1, b1, b2⟩
    · have : t.toMinutes ≤ DT.toMinutes { t with hour := digitsVal w.hour, minute := digitsVal w.minute } + 1440 := by
        have := hv'.2
        simp only [DT.toMinutes]; omega
      show _ ≤ DT.toMinutes { t with hour := digitsVal w.hour, minute := digitsVal w.minute }
      omega
  · have : ∃ tr, changeIndicator m = .ok (groupCode (some m.string), tr) := by
      cases hp : startsWith m.string py!"PROB" with
      | false => exact changeIndicator_total hp
      | true => rw [hs] at hp; exact changeIndicator_prob g (taf_change_prob hm hp hg) m hs
    obtain ⟨tr, h⟩ := this
    rw [h, ok_bind]
    exact ⟨_, shown g, rfl, by rw [hs, groupCode_some], s2, hv, show _ ≤ v.from_.time.toMinutes by omega⟩

theorem change_step {v : Valid} (hv : v.from_.time.valid = true)
    (hb : v.from_.time.toMinutes < lastYear + 2 * 1440) (ha : 98 * 1440 ≤ v.from_.time.toMinutes)
    {code : PyStr} {c rest : List (PyStr × Nat)} {x : PyStr × Nat} (ho : Ordered (x :: rest)) (hxc : x ∈ c)
    (hn : 10 ∉ x.1) {o : Option Exc} (hx : ChangeRaises c x o)
    {h : Handler ChangeForecasted} {m : Match} {s : ChangeForecasted}
    (hh : ChangeForecasted.handlers[x.2]? = some h) (hm : h.regexp.match x.1 = some m)
    (hl : ChangeLeft v code c (x :: rest) s) :
    (∀ e, o = some e → h.run m s = .error e) ∧
      (o = none → ∃ s', h.run m s = .ok s' ∧ ChangeLeft v code c rest s') := by
  obtain ⟨g, k⟩ := x
  have hroom : CoreRoom 4 7 k s.core := hl.room.at fun _ _ h => CoreRoom.mono h
  have hind : k ≠ 0 → IndicatorOf c s.indicator.code := by
    intro h0
    rcases hl.indicator with ⟨g', hg'⟩ | h
    · rcases List.mem_cons.1 hg' with e | hg'
      · cases e; exact absurd rfl h0
      · have := (List.pairwise_cons.1 ho).1 _ hg'
        simp at this
    · exact h
  have hlift : ∀ f : Match → Core → Except Exc Core, k ≠ 0 → h.run = ChangeForecasted.lift f →
      Post (fun _ => False) (CoreRoom 4 7 (k + 1)) (f m s.core) →
      ∃ s', h.run m s = .ok s' ∧ ChangeLeft v code c rest s' := by
    intro f hk hf hp
    obtain ⟨x, hx, hp⟩ := Post.never hp
    refine ⟨{ s with core := x }, ?_, Left.next ho hp, hl.code, hl.period, hl.valid, hl.after,
      .inr (hind hk)⟩
    rw [hf]
    exact liftCore_ok.2 ⟨x, hx, rfl⟩
  have hnone : k ≠ 1 → k ≠ 3 → o = none := fun h1 h2 => by simpa [ChangeRaises, h1, h2] using hx
  have hfine : o = none → (∃ s', h.run m s = .ok s' ∧ ChangeLeft v code c rest s') →
      (∀ e, o = some e → h.run m s = .error e) ∧
      (o = none → ∃ s', h.run m s = .ok s' ∧ ChangeLeft v code c rest s') :=
    fun h1 h2 => ⟨(fun e he => by rw [h1] at he; cases he), fun _ => h2⟩
  have hweather : 4 ≤ k → k < 7 → h = ⟨MetarRegExp.WEATHER, ChangeForecasted.lift Core.handleWeather⟩ →
      (∀ e, o = some e → h.run m s = .error e) ∧
      (o = none → ∃ s', h.run m s = .ok s' ∧ ChangeLeft v code c rest s') := by
    rintro h1 h2 rfl
    exact hfine (hnone (by omega) (by omega)) (hlift _ (by omega) rfl (weather_post hroom h1 h2))
  have hcloud : 7 ≤ k → k < 11 → h = ⟨MetarRegExp.CLOUD, ChangeForecasted.lift Core.handleCloud⟩ →
      (∀ e, o = some e → h.run m s = .error e) ∧
      (o = none → ∃ s', h.run m s = .ok s' ∧ ChangeLeft v code c rest s') := by
    rintro h1 h2 rfl
    exact hfine (hnone (by omega) (by omega)) (hlift _ (by omega) rfl (cloud_post hm hroom h1 h2))
  simp only at hh hm hn
  match k, hh with
  | 0, hh =>
    cases hh
    obtain ⟨i, t, hi, i1, i2, i3, i4⟩ := TafIndicator.new_exact hv hb ha hm hn
    refine hfine (hnone (by omega) (by omega)) ⟨{ s with indicator := i }, ?_,
      Left.next ho hroom.mono, hl.code, hl.period, i3, i4, .inr (.inl ⟨g, t, hxc, i1, i2⟩)⟩
    simp only [ChangeForecasted.handleIndicator]
    rw [hl.period, hi]; rfl
  | 1, hh =>
    cases hh
    have hind := hind (by omega)
    obtain ⟨v', hv', b1, b2, b3⟩ := valid_exists hv (Nat.lt_of_lt_of_le hb (by omega)) hm hn
    simp only [ChangeRaises, if_true] at hx
    rcases hind with ⟨g0, t, hg0, hcode, hsame⟩ | ⟨hno, hcode⟩
    · have ho' : o = none := by
        rcases hx with ⟨-, h⟩ | ⟨hno, -⟩
        · exact h
        · exact absurd hg0 (hno g0)
      refine hfine ho' ?_
      simp only [ChangeForecasted.handleValid, TafIndicator.setValidPeriod]
      rw [hl.period, hv', ok_bind, hcode]
      simp only
      split
      · exact ⟨_, rfl, Left.next ho ⟨hroom.1.mono, hroom.2.mono⟩, hl.code, rfl, b1,
          show _ ≤ v'.from_.time.toMinutes by omega, .inr (.inl ⟨g0, t, hg0, rfl, hsame⟩)⟩
      · exact ⟨_, rfl, Left.next ho ⟨hroom.1.mono, hroom.2.mono⟩, hl.code, rfl, b1,
          show _ ≤ v'.from_.time.toMinutes by omega, .inr (.inl ⟨g0, _, hg0, rfl, hsame.append _⟩)⟩
    · rcases hx with ⟨⟨g0, hg0⟩, -⟩ | ⟨-, rfl⟩
      · exact absurd hg0 (hno g0)
      refine ⟨fun e he => ?_, fun he => by cases he⟩
      cases he
      simp only [ChangeForecasted.handleValid, TafIndicator.setValidPeriod]
      rw [hl.period, hv', ok_bind, hcode]
      rfl
  | 2, hh =>
    cases hh
    exact hfine (hnone (by omega) (by omega)) (hlift _ (by omega) rfl (wind_post windLike_taf hm hroom))
  | 3, hh =>
    cases hh
    simp only [ChangeRaises] at hx
    rw [if_neg (by omega), if_pos trivial] at hx
    have hv := vis_exact_raise hx hm
    constructor
    · intro e he
      simp only [ChangeForecasted.lift, liftCore_error]
      unfold Core.handlePrevailing
      rw [hv.1 e he]; rfl
    · intro he
      exact hlift _ (by omega) rfl (prevailing_post (Raises.of_ok (hv.2 he)) hroom)
  | 4, hh => cases hh; exact hweather (by omega) (by omega) rfl
  | 5, hh => cases hh; exact hweather (by omega) (by omega) rfl
  | 6, hh => cases hh; exact hweather (by omega) (by omega) rfl
  | 7, hh => cases hh; exact hcloud (by omega) (by omega) rfl
  | 8, hh => cases hh; exact hcloud (by omega) (by omega) rfl
  | 9, hh => cases hh; exact hcloud (by omega) (by omega) rfl
  | 10, hh => cases hh; exact hcloud (by omega) (by omega) rfl
  | k + 11, hh => cases hh

/-- A change ends with the first exception of its groups. -/
theorem ChangeForecasted.new_exact {v : Valid} (hv : v.from_.time.valid = true)
    (hb : v.from_.time.toMinutes < lastYear + 2 * 1440) (ha : 98 * 1440 ≤ v.from_.time.toMinutes)
    {code : PyStr} (hn : 10 ∉ code) {c : List (PyStr × Nat)}
    (hc : Decodes ChangeForecasted.handlers (changeGroups (shown code)) c)
    {os : List (Option Exc)} (hE : Each (ChangeRaises c) c os) :
    (∀ e, firstOf os = some e → ChangeForecasted.new code v = .error e) ∧
    (firstOf os = none → ∃ p, ChangeForecasted.new code v = .ok p ∧ p.code = shown code ∧
      p.indicator.valid.from_.time.valid = true ∧ 96 * 1440 ≤ p.indicator.valid.from_.time.toMinutes ∧
      IndicatorOf c p.indicator.code) := by
  have h1 : 10 ∉ replace code py!"_" py!" " := not_mem_replace (by decide) hn (by decide)
  have h2 : 10 ∉ sanitizeVisibility (sanitizeChangeIndicator (replace code py!"_" py!" ")) :=
    not_mem_sanitizeVisibility (by decide) (by decide)
      (not_mem_sanitizeChangeIndicator (by decide) h1)
  rw [← shown_eq] at h2
  have hE' : Each (fun x o => (x ∈ c ∧ 10 ∉ x.1) ∧ ChangeRaises c x o) c os :=
    Each.map_mem hE fun x hx o h => ⟨⟨hx, by
      rw [(decodes_iff _ _ _).1 hc] at hx
      exact not_mem_splitC h2 x.1 (consumed_mem hx)⟩, h⟩
  obtain ⟨e1, e2⟩ := parseSection_exact
    (s := { code := shown code, valid := v, indicator := ⟨none, none, v⟩ }) hc hE'
    (P := ChangeLeft v (shown code) c) (by
    refine ⟨⟨0, CoreRoom.new 4 7, fun _ _ => Nat.zero_le _⟩, rfl, rfl, hv, by
      show _ ≤ v.from_.time.toMinutes; omega, ?_⟩
    by_cases h : ∃ g, (g, 0) ∈ c
    · exact .inl h
    · exact .inr (.inr ⟨fun g hg => h ⟨g, hg⟩, rfl⟩))
    fun x rest ho o hx h m s hh hm hl => change_step hv hb ha ho hx.1.1 hx.1.2 hx.2 hh hm hl
  unfold ChangeForecasted.new
  rw [← shown_eq]
  simp only [TafIndicator.new, ok_bind]
  constructor
  · intro e he
    rw [e1 e he]; rfl
  · intro he
    obtain ⟨p, un, hp, hl⟩ := e2 he
    rw [hp]
    refine ⟨_, rfl, hl.code, hl.valid, hl.after, ?_⟩
    rcases hl.indicator with ⟨_, h⟩ | h
    · cases h
    · exact h

/-! ### Adding changes -/

/-- Looking back, a change without indicator is met. -/
def Stuck (l : List ChangeForecasted) : Prop :=
  ∃ pre x post, l = pre ++ x :: post ∧ x.indicator.code = none ∧
    ∀ y ∈ post, y.starts py!"PROB" ∨ y.starts py!"TEMPO"

theorem stuck_last {l : List ChangeForecasted} {x : ChangeForecasted} :
    Stuck (l ++ [x]) ↔ x.indicator.code = none ∨
      ((x.starts py!"PROB" ∨ x.starts py!"TEMPO") ∧ Stuck l) := by
  constructor
  · rintro ⟨pre, y, post, e, h1, h2⟩
    rcases List.eq_nil_or_concat post with rfl | ⟨post', z, rfl⟩
    · left
      have := List.append_inj' e rfl
      cases this.2
      exact h1
    · right
      rw [List.concat_eq_append] at *
      have e' : l ++ [x] = (pre ++ y :: post') ++ [z] := by rw [e]; simp
      obtain ⟨rfl, e2⟩ := List.append_inj' e' rfl
      cases e2
      exact ⟨h2 x (by simp), pre, y, post', rfl, h1, fun w hw => h2 w (by simp [hw])⟩
  · rintro (h | ⟨h, pre, y, post, rfl, h1, h2⟩)
    · exact ⟨l, x, [], rfl, h, by simp⟩
    · refine ⟨pre, y, post ++ [x], by simp, h1, fun w hw => ?_⟩
      rcases List.mem_append.1 hw with hw | hw
      · exact h2 w hw
      · rw [List.mem_singleton.1 hw]; exact h

theorem addChangeGo_exact {u : Time} {u' : DT} (hu : u.time.addHours (-1) = .ok u')
    (rest : List ChangeForecasted) (last : ChangeForecasted) (temp : List ChangeForecasted) :
    (Stuck (rest.reverse ++ [last]) → addChangeGo u rest last temp = .error .attribute) ∧
    (¬ Stuck (rest.reverse ++ [last]) → ∃ r, addChangeGo u rest last temp = .ok r) := by
  induction rest generalizing last temp with
  | nil =>
    rw [stuck_last]
    unfold addChangeGo
    cases hc : last.indicator.code with
    | none => simp
    | some c =>
      have hno : ¬ Stuck [] := by
        rintro ⟨pre, x, post, e, -⟩
        have := congrArg List.length e
        simp at this
      simp only [List.reverse_nil, hno, and_false, or_false, reduceCtorEq, false_implies, true_and,
        not_false_eq_true, true_implies]
      split
      · exact ⟨_, rfl⟩
      · split
        · next hf =>
          simp only [TafIndicator.resetUntil, hu, ok_bind, hc, hf, if_true]
          exact ⟨_, rfl⟩
        · exact ⟨_, rfl⟩
  | cons l rest ih =>
    rw [stuck_last, List.reverse_cons]
    unfold addChangeGo
    cases hc : last.indicator.code with
    | none => simp
    | some c =>
      have hst : ∀ p, last.starts p ↔ startsWith c p = true := by
        intro p; simp [ChangeForecasted.starts, hc]
      simp only [hst, reduceCtorEq, false_or]
      split
      · next hp =>
        obtain ⟨h1, h2⟩ := ih l (temp ++ [last])
        exact ⟨fun h => h1 h.2, fun h => h2 fun h' => h ⟨hp, h'⟩⟩
      · next hp =>
        refine ⟨fun h => absurd h.1 hp, fun _ => ?_⟩
        split
        · next hf =>
          simp only [TafIndicator.resetUntil, hu, ok_bind, hc, hf, if_true]
          exact ⟨_, rfl⟩
        · exact ⟨_, rfl⟩

theorem addAll_total {α : Type} {g : GroupList α} {l : List α} (h : g.list.length + l.length ≤ g.max) :
    ∃ g', addAll g l = .ok g' := by
  induction l generalizing g with
  | nil => exact ⟨g, rfl⟩
  | cons a l ih =>
    simp only [List.length_cons] at h
    unfold addAll GroupList.add
    rw [if_neg (by omega)]
    exact ih (by simp; omega)

theorem Closes.length {u : Time} {l l' : List ChangeForecasted} (h : Closes u l l') :
    l'.length = l.length := by
  rcases h with ⟨-, rfl⟩ | ⟨pre, x, x', post, rfl, rfl, -⟩
  · rfl
  · simp

/-- A change that begins a period of its own. -/
def ChangeForecasted.begins (c : ChangeForecasted) : Prop :=
  startsWith c.code py!"FM" = true ∨ startsWith c.code py!"BECMG" = true

theorem addChange_exact {g : GroupList ChangeForecasted} {new : ChangeForecasted} {u' : DT}
    (hu : new.indicator.valid.from_.time.addHours (-1) = .ok u') (hmax : g.list.length ≤ g.max) :
    (new.begins ∧ Stuck g.list → addChange g new = .error .attribute) ∧
    (¬ (new.begins ∧ Stuck g.list) → g.max ≤ g.list.length → addChange g new = .error .range) ∧
    (¬ (new.begins ∧ Stuck g.list) → g.list.length < g.max → ∃ g', addChange g new = .ok g') := by
  have hadd : ∀ k : GroupList ChangeForecasted, k.max = g.max → k.list.length = g.list.length →
      (g.max ≤ g.list.length → k.add new = .error .range) ∧
      (g.list.length < g.max → ∃ g', k.add new = .ok g') := by
    intro k h1 h2
    unfold GroupList.add
    refine ⟨fun h => by rw [if_pos (by omega)], fun h => ?_⟩
    rw [if_neg (by omega)]
    exact ⟨_, rfl⟩
  unfold addChange
  split
  · next hl =>
    have hl : g.list = [] := by simpa using hl
    refine ⟨fun h => ?_, fun _ => (hadd g rfl rfl).1, fun _ => (hadd g rfl rfl).2⟩
    obtain ⟨-, pre, x, post, e, -⟩ := h
    rw [hl] at e
    have := congrArg List.length e
    simp at this
  · next last rest hl =>
    have hl' : g.list = rest.reverse ++ [last] := by
      have := congrArg List.reverse hl
      simpa using this
    split
    · next hs =>
      obtain ⟨h1, h2⟩ := addChangeGo_exact hu rest last []
      rw [← hl'] at h1 h2
      refine ⟨fun h => by rw [h1 h.2], ?_⟩
      have hgo : ¬ (new.begins ∧ Stuck g.list) → ∃ (rest' temp' : List ChangeForecasted)
          (k : GroupList ChangeForecasted), k.max = g.max ∧ k.list.length = g.list.length ∧
          addChangeGo new.indicator.valid.from_ rest last [] = .ok (rest', temp') ∧
          addAll { g with list := rest'.reverse } temp'.reverse = .ok k := by
        intro hns
        obtain ⟨⟨rest', temp'⟩, hg⟩ := h2 fun h => hns ⟨hs, h⟩
        obtain ⟨l', e1, e2⟩ := addChangeGo_ok hg
        have elen := e2.length
        rw [← hl', ← List.append_nil l', ← List.reverse_nil, ← e1] at elen
        obtain ⟨k, hk⟩ := addAll_total (g := { g with list := rest'.reverse }) (l := temp'.reverse) (by
          show rest'.reverse.length + _ ≤ g.max; rw [← List.length_append]; omega)
        refine ⟨rest', temp', k, ?_, ?_, hg, hk⟩
        · rw [addAll_ok hk]
        · rw [addAll_ok hk]; exact elen
      constructor
      · intro hns hge
        obtain ⟨rest', temp', k, k1, k2, k3, k4⟩ := hgo hns
        rw [k3]
        simp only [k4]
        exact (hadd k k1 k2).1 hge
      · intro hns hlt
        obtain ⟨rest', temp', k, k1, k2, k3, k4⟩ := hgo hns
        rw [k3]
        simp only [k4]
        exact (hadd k k1 k2).2 hlt
    · next hs =>
      exact ⟨fun h => absurd h.1 hs, fun _ => (hadd g rfl rfl).1, fun _ => (hadd g rfl rfl).2⟩

/-- The changes in the list have the given indicators. -/
def CodeLike (i : Option PyStr) (c : ChangeForecasted) : Prop :=
  (∃ g t, i = some g ∧ c.indicator.code = some t ∧ SameHead g t) ∨ (i = none ∧ c.indicator.code = none)

theorem CodeLike.passing {i : Option PyStr} {c : ChangeForecasted} (h : CodeLike i c) :
    (c.starts py!"PROB" ∨ c.starts py!"TEMPO") ↔ ∃ g, i = some g ∧ (py!"PROB" <+: g ∨ py!"TEMPO" <+: g) := by
  unfold ChangeForecasted.starts
  rcases h with ⟨g, t, rfl, e, hs⟩ | ⟨rfl, e⟩
  · simp only [e, Option.some.injEq, startsWith_iff, exists_eq_left']
    rw [hs.2 py!"PROB" (by simp [heads]), hs.2 py!"TEMPO" (by simp [heads])]
  · simp [e]

theorem CodeLike.none_iff {i : Option PyStr} {c : ChangeForecasted} (h : CodeLike i c) :
    i = none ↔ c.indicator.code = none := by
  rcases h with ⟨g, t, rfl, e, hs⟩ | ⟨rfl, e⟩ <;> simp [e]

theorem Each.append_left {α β : Type} {R : α → β → Prop} {a1 a2 : List α} {b : List β}
    (h : Each R (a1 ++ a2) b) : ∃ b1 b2, b = b1 ++ b2 ∧ Each R a1 b1 ∧ Each R a2 b2 := by
  induction a1 generalizing b with
  | nil => exact ⟨[], b, rfl, .nil, h⟩
  | cons x a1 ih =>
    cases h with
    | cons h1 h2 =>
      obtain ⟨b1, b2, rfl, h3, h4⟩ := ih h2
      exact ⟨_ :: b1, b2, rfl, .cons h1 h3, h4⟩

theorem Each.append_right {α β : Type} {R : α → β → Prop} {b1 b2 : List β} {a : List α}
    (h : Each R a (b1 ++ b2)) : ∃ a1 a2, a = a1 ++ a2 ∧ Each R a1 b1 ∧ Each R a2 b2 := by
  induction b1 generalizing a with
  | nil => exact ⟨[], a, rfl, .nil, h⟩
  | cons x b1 ih =>
    cases h with
    | cons h1 h2 =>
      obtain ⟨a1, a2, rfl, h3, h4⟩ := ih h2
      exact ⟨_ :: a1, a2, rfl, .cons h1 h3, h4⟩

theorem Each.of_mem_left {α β : Type} {R : α → β → Prop} {as : List α} {bs : List β} (h : Each R as bs) :
    ∀ a ∈ as, ∃ b ∈ bs, R a b := by
  induction h with
  | nil => simp
  | cons h1 _ ih =>
    intro a ha
    rcases List.mem_cons.1 ha with rfl | ha
    · exact ⟨_, by simp, h1⟩
    · obtain ⟨b, hb, h⟩ := ih a ha
      exact ⟨b, by simp [hb], h⟩

theorem Each.of_mem_right {α β : Type} {R : α → β → Prop} {as : List α} {bs : List β} (h : Each R as bs) :
    ∀ b ∈ bs, ∃ a ∈ as, R a b := by
  induction h with
  | nil => simp
  | cons h1 _ ih =>
    intro a ha
    rcases List.mem_cons.1 ha with rfl | ha
    · exact ⟨_, by simp, h1⟩
    · obtain ⟨b, hb, h⟩ := ih a ha
      exact ⟨b, by simp [hb], h⟩

theorem meetsNone_iff {earlier : List (Option PyStr)} {l : List ChangeForecasted}
    (h : Each CodeLike earlier l) : MeetsNone earlier ↔ Stuck l := by
  constructor
  · rintro ⟨pre, post, rfl, hp⟩
    obtain ⟨b1, b2, rfl, -, h2⟩ := Each.append_left h
    cases h2 with
    | @cons _ x _ post' h3 h4 =>
      refine ⟨b1, x, post', rfl, h3.none_iff.1 rfl, fun y hy => ?_⟩
      obtain ⟨i, hi, hr⟩ := Each.of_mem_right h4 y hy
      exact hr.passing.2 (hp i hi)
  · rintro ⟨pre, x, post, rfl, hx, hp⟩
    obtain ⟨b1, b2, rfl, -, h2⟩ := Each.append_right h
    cases h2 with
    | @cons i _ post' _ h3 h4 =>
      cases h3.none_iff.2 hx
      refine ⟨b1, post', rfl, fun y hy => ?_⟩
      obtain ⟨i, hi, hr⟩ := Each.of_mem_left h4 y hy
      exact hr.passing.1 (hp i hi)

theorem CodeLike.closes {u : Time} {l l' : List ChangeForecasted} (h : Closes u l l')
    {earlier : List (Option PyStr)} (he : Each CodeLike earlier l) : Each CodeLike earlier l' := by
  rcases h with ⟨-, rfl⟩ | ⟨pre, x, x', post, rfl, rfl, -, -, -, -, h⟩
  · exact he
  · obtain ⟨b1, b2, rfl, h1, h2⟩ := Each.append_right he
    cases h2 with
    | cons h3 h4 =>
      refine h1.append (.cons ?_ h4)
      rcases h with ⟨-, i, hi, rfl⟩ | ⟨-, rfl⟩
      · unfold CodeLike at h3 ⊢
        simp only
        rw [(TafIndicator.resetUntil_ok hi).1]
        exact h3
      · exact h3

end Verif
