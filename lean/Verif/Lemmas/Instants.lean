import Verif.Lemmas.Times
import Verif.Spec.Periods

/-
The instants of period groups.
-/

namespace Verif
open Spec

theorem exists_minutes {n : Nat} (h1 : 1440 ≤ n) (h2 : n < (maxOrdinal + 1) * 1440) :
    ∃ b : DT, b.valid = true ∧ b.toMinutes = n := by
  obtain ⟨hv, ho⟩ := ofOrd_spec (o := n / 1440) (by omega) (by unfold maxOrdinal at *; omega)
  refine ⟨⟨(ofOrd (n / 1440)).1, (ofOrd (n / 1440)).2.1, (ofOrd (n / 1440)).2.2, n % 1440 / 60,
    n % 1440 % 60⟩, ?_, ?_⟩
  · rw [DT.valid_iff]
    exact ⟨hv, by simp only; omega, by simp only; omega⟩
  · unfold DT.toMinutes
    simp only
    rw [ho]
    omega

theorem midnight_valid {t : DT} (h : t.valid = true) : (midnight t).valid = true := by
  rw [DT.valid_iff] at h ⊢
  exact ⟨h.1, by simp [midnight], by simp [midnight]⟩

theorem midnight_minutes (t : DT) :
    (midnight t).toMinutes = toOrd t.year t.month t.day * 1440 := by
  simp [midnight, DT.toMinutes]

theorem toMinutes_midnight {t : DT} : t.toMinutes = (midnight t).toMinutes + t.hour * 60 + t.minute := by
  rw [midnight_minutes]; rfl

theorem after_iff {t u : DT} (ht : t.valid = true) {k : Int} :
    After t k u ↔ u.valid = true ∧ (u.toMinutes : Int) = t.toMinutes + k := by
  rw [← addMinutes_after ht, addMinutes_iff]

/-- The day after has another number. -/
theorem next_day_ne {t b : DT} (ht : t.valid = true) (hb : b.valid = true)
    (h : toOrd b.year b.month b.day = toOrd t.year t.month t.day + 1) : b.day ≠ t.day := by
  intro hd
  rw [DT.valid_iff] at ht hb
  obtain ⟨ht, -⟩ := ht
  obtain ⟨hb, -⟩ := hb
  rw [hd] at h hb
  obtain ⟨t1, t2, t3, t4, t5, t6⟩ := ht
  obtain ⟨b1, b2, b3, b4, b5, b6⟩ := hb
  unfold toOrd at h
  rw [daysBeforeMonth_eq, daysBeforeMonth_eq] at h
  have hy : t.year = b.year ∨ t.year < b.year ∨ b.year < t.year := by omega
  have d1 := dimL_pos (isLeap t.year) t.month t3 t4
  have d2 := dimL_pos (isLeap b.year) b.month b3 b4
  have e1 := dbmL_bound (isLeap t.year) t3 t4
  have e2 := dbmL_bound (isLeap b.year) b3 b4
  rcases hy with hy | hy | hy
  · rw [hy] at h
    have hm : t.month = b.month ∨ t.month < b.month ∨ b.month < t.month := by omega
    rcases hm with hm | hm | hm
    · rw [hm] at h; omega
    · have := dbmL_mono (isLeap b.year) t3 hm b4
      rw [hy] at d1
      omega
    · have := dbmL_mono (isLeap b.year) b3 hm t4
      omega
  · have := daysBeforeYear_mono t1 hy
    omega
  · have := daysBeforeYear_mono b1 hy
    omega

theorem takes_iff {t u : DT} (ht : t.valid = true) {d h : Nat} :
    Takes t d h u ↔ u.valid = true ∧
      u.toMinutes = (midnight t).toMinutes + (if d = t.day then 0 else 1440) + 60 * h := by
  have hm := midnight_valid ht
  constructor
  · rintro ⟨b, h1, h2, h3⟩
    by_cases hd : d = t.day
    · obtain rfl := h1 hd
      obtain ⟨hu, e⟩ := (after_iff hm).1 h3
      exact ⟨hu, by rw [if_pos hd]; omega⟩
    · obtain ⟨hb, e1⟩ := (after_iff hm).1 (h2 hd)
      obtain ⟨hu, e2⟩ := (after_iff hb).1 h3
      exact ⟨hu, by rw [if_neg hd]; omega⟩
  · rintro ⟨hu, e⟩
    by_cases hd : d = t.day
    · rw [if_pos hd] at e
      exact ⟨midnight t, fun _ => rfl, fun h => absurd hd h, (after_iff hm).2 ⟨hu, by omega⟩⟩
    · rw [if_neg hd] at e
      have r1 := toMinutes_range hm
      have r2 := toMinutes_range hu
      obtain ⟨b, hb, eb⟩ := exists_minutes (n := (midnight t).toMinutes + 1440) (by omega) (by omega)
      exact ⟨b, fun h => absurd h hd, fun _ => (after_iff hm).2 ⟨hb, by omega⟩,
        (after_iff hb).2 ⟨hu, by omega⟩⟩

theorem Spec.Takes.unique {t u v : DT} (ht : t.valid = true) {d h : Nat} (hu : Takes t d h u)
    (hv : Takes t d h v) : u = v := by
  rw [takes_iff ht] at hu hv
  exact toMinutes_inj hu.1 hv.1 (by omega)

theorem Spec.Stated.takes {t u : DT} (ht : t.valid = true) {d h : Nat} (hs : Stated t d h u) :
    Takes t d h u := by
  obtain ⟨b, rfl | hb, hd, hu⟩ := hs
  · exact ⟨_, fun _ => rfl, fun h => absurd hd.symm h, hu⟩
  · refine ⟨b, fun he => ?_, fun _ => hb, hu⟩
    exfalso
    obtain ⟨hbv, e⟩ := (after_iff (midnight_valid ht)).1 hb
    refine next_day_ne ht hbv ?_ (hd.trans he)
    rw [midnight_minutes, toMinutes_midnight, midnight_minutes] at e
    have := (DT.valid_iff b).1 hbv
    omega

/-! ### The operations of the library -/

theorem onDay_minutes {t t' : DT} {d : Nat} (ht : t.valid = true) (h : t.onDay d = .ok t') :
    t'.valid = true ∧ t'.toMinutes = t.toMinutes + (if d = t.day then 0 else 1440) := by
  refine ⟨onDay_valid ht h, ?_⟩
  unfold DT.onDay at h
  split at h
  · next hd => rw [pure_ok] at h; rw [if_pos hd, h]; omega
  · next hd =>
    have := (addMinutes_ok h).2
    rw [if_neg hd]; omega

theorem onDay_exists {t : DT} {d : Nat} (ht : t.valid = true) {u : DT} (hu : u.valid = true)
    (h : (midnight t).toMinutes + (if d = t.day then 0 else 1440) ≤ u.toMinutes) :
    ∃ t', t.onDay d = .ok t' := by
  unfold DT.onDay
  split
  · exact ⟨t, rfl⟩
  · next hd =>
    rw [if_neg hd] at h
    have r1 := toMinutes_range ht
    have r2 := toMinutes_range hu
    have hv := (DT.valid_iff t).1 ht
    have e := toMinutes_midnight (t := t)
    have e2 := midnight_minutes t
    obtain ⟨b, hb, eb⟩ := exists_minutes (n := t.toMinutes + 1440) (by omega) (by omega)
    exact ⟨b, addMinutes_iff.2 ⟨hb, by omega⟩⟩

/-- Setting the hour of a time. -/
theorem hour_minutes (t : DT) (h : Nat) :
    ({ t with hour := h } : DT).toMinutes = (midnight t).toMinutes + h * 60 + t.minute := by
  rw [midnight_minutes]; rfl

theorem day_minutes {t : DT} (ht : t.valid = true) {n : Nat} (h : t.toMinutes = n) :
    (midnight t).toMinutes = n - n % 1440 ∧ t.hour = n % 1440 / 60 ∧ t.minute = n % 60 := by
  rw [toMinutes_midnight, midnight_minutes] at h
  rw [midnight_minutes]
  have := (DT.valid_iff t).1 ht
  omega

/-- Day by `onDay` with minute 0, then the hour. -/
theorem takes_day_hour {t t' : DT} {d h : Nat} (ht : t.valid = true) (hh : h ≤ 23)
    (e : ({ t with minute := 0 } : DT).onDay d = .ok t') : Takes t d h { t' with hour := h } := by
  have hv0 : ({ t with minute := 0 } : DT).valid = true := by
    rw [DT.valid_iff] at ht ⊢; exact ⟨ht.1, ht.2.1, by simp⟩
  obtain ⟨h1, h2⟩ := onDay_minutes hv0 e
  obtain ⟨e1, e2, e3⟩ := day_minutes h1 h2
  rw [takes_iff ht]
  constructor
  · rw [DT.valid_iff] at h1 ⊢
    exact ⟨h1.1, hh, h1.2.2⟩
  · rw [hour_minutes, e1, e3, toMinutes_midnight, midnight_minutes, midnight_minutes]
    have := (DT.valid_iff t).1 ht
    simp only
    split <;> omega

/-- Day by `onDay` with minute 0, then the day after for the hour 24. -/
theorem takes_day_end {t t' t'' : DT} {d : Nat} (ht : t.valid = true)
    (e : ({ t with minute := 0 } : DT).onDay d = .ok t') (e' : t'.addDays 1 = .ok t'') :
    Takes t d 24 { t'' with hour := 0 } := by
  have hv0 : ({ t with minute := 0 } : DT).valid = true := by
    rw [DT.valid_iff] at ht ⊢; exact ⟨ht.1, ht.2.1, by simp⟩
  obtain ⟨h1, h2⟩ := onDay_minutes hv0 e
  obtain ⟨h3, h4⟩ := addMinutes_ok e'
  obtain ⟨e1, e2, e3⟩ := day_minutes h3 (n := t'.toMinutes + 1440) (by omega)
  rw [takes_iff ht]
  constructor
  · rw [DT.valid_iff] at h3 ⊢
    exact ⟨h3.1, by simp, h3.2.2⟩
  · rw [hour_minutes, e1, e3, h2, toMinutes_midnight, midnight_minutes, midnight_minutes]
    have := (DT.valid_iff t).1 ht
    simp only
    split <;> omega

/-- The hour with minute 0, then the day by `onDay`. -/
theorem takes_hour_day {t t' : DT} {d h : Nat} (ht : t.valid = true) (hh : h ≤ 23)
    (e : ({ t with minute := 0, hour := h } : DT).onDay d = .ok t') : Takes t d h t' := by
  have hv0 : ({ t with minute := 0, hour := h } : DT).valid = true := by
    rw [DT.valid_iff] at ht ⊢; exact ⟨ht.1, hh, by simp⟩
  obtain ⟨h1, h2⟩ := onDay_minutes hv0 e
  rw [takes_iff ht]
  refine ⟨h1, ?_⟩
  rw [h2, toMinutes_midnight, midnight_minutes, midnight_minutes]
  simp only
  omega

theorem takes_onDay {t u : DT} {d h k : Nat} (ht : t.valid = true) (hk : k ≤ 23) (hu : Takes t d h u) :
    ∃ t', ({ t with minute := 0, hour := k } : DT).onDay d = .ok t' := by
  rw [takes_iff ht] at hu
  have hv0 : ({ t with minute := 0, hour := k } : DT).valid = true := by
    rw [DT.valid_iff] at ht ⊢; exact ⟨ht.1, hk, by simp⟩
  refine onDay_exists hv0 hu.1 ?_
  rw [hu.2, midnight_minutes, midnight_minutes]
  simp only
  omega

/-- The groups of a valid period hold these numbers. -/
structure Valid.Groups (m : Match) (fd fh td th : Nat) : Prop where
  fmday : pyInt (m.group .fmday) = .ok fd
  fmhour : pyInt (m.group .fmhour) = .ok fh
  tlday : pyInt (m.group .tlday) = .ok td
  tlhour : pyInt (m.group .tlhour) = .ok th

theorem Valid.fromTaf_takes {m : Match} {fd fh td th : Nat} (hm : Valid.Groups m fd fh td th)
    {t : DT} (ht : t.valid = true) {v : Valid} (h : Valid.fromTaf (some m) t = .ok v) :
    Takes t fd fh v.from_.time ∧ Takes t td th v.until_.time ∧ v.code = groupCode (some m.string) := by
  unfold Valid.fromTaf at h
  simp only [hm.fmday, hm.fmhour, hm.tlday, hm.tlhour, bind_ok, Except.ok.injEq, exists_eq_left'] at h
  obtain ⟨t0, h0, f, h1, u, h2, h⟩ := h
  obtain ⟨-, rfl⟩ := replaceMinute_ok h0
  split at h
  · next h24 =>
    simp only [bind_ok, pure_ok] at h
    obtain ⟨u', h3, f', h4, u'', h5, rfl⟩ := h
    obtain ⟨hf, rfl⟩ := replaceHour_ok h4
    obtain ⟨-, rfl⟩ := replaceHour_ok h5
    subst h24
    exact ⟨takes_day_hour ht hf h1, takes_day_end ht h2 h3, rfl⟩
  · next h24 =>
    simp only [bind_ok, pure_ok] at h
    obtain ⟨u', rfl, f', h4, u'', h5, rfl⟩ := h
    obtain ⟨hf, rfl⟩ := replaceHour_ok h4
    obtain ⟨hu, rfl⟩ := replaceHour_ok h5
    exact ⟨takes_day_hour ht hf h1, takes_day_hour ht hu h2, rfl⟩

theorem Valid.fromTaf_exists {m : Match} {fd fh td th : Nat} (hm : Valid.Groups m fd fh td th)
    (hfh : fh ≤ 23) (hth : th ≤ 24) {t f u : DT} (ht : t.valid = true) (hf : Takes t fd fh f)
    (hu : Takes t td th u) : ∃ v, Valid.fromTaf (some m) t = .ok v := by
  have hh := ((DT.valid_iff t).1 ht).2.1
  obtain ⟨f1, e1⟩ := takes_onDay ht hh hf
  obtain ⟨u1, e2⟩ := takes_onDay ht hh hu
  have e0 : ({ t with minute := 0, hour := t.hour } : DT) = { t with minute := 0 } := rfl
  rw [e0] at e1 e2
  unfold Valid.fromTaf
  simp only [hm.fmday, hm.fmhour, hm.tlday, hm.tlhour, DT.replaceMinute, Nat.zero_le, if_true, ok_bind,
    e1, e2]
  by_cases h24 : th = 24
  · have hv0 : ({ t with minute := 0 } : DT).valid = true := by
      rw [DT.valid_iff] at ht ⊢; exact ⟨ht.1, ht.2.1, by simp⟩
    obtain ⟨h1, h2⟩ := onDay_minutes hv0 e2
    have : ∃ u2, u1.addDays 1 = .ok u2 := by
      obtain ⟨hu1, hu2⟩ := (takes_iff ht).1 hu
      have r := toMinutes_range hu1
      have r' := toMinutes_range h1
      have hm := midnight_minutes t
      have e : ({ t with minute := 0 } : DT).toMinutes = toOrd t.year t.month t.day * 1440 + t.hour * 60 := by
        simp [DT.toMinutes]
      rw [e] at h2
      simp only at h2
      have hδ : (if td = t.day then 0 else 1440) = 0 ∨ (if td = t.day then 0 else 1440) = 1440 := by
        split <;> simp
      generalize (if td = t.day then 0 else 1440) = δ at h2 hu2 hδ
      obtain ⟨b, hb, eb⟩ := exists_minutes (n := u1.toMinutes + 1440) (by omega) (by omega)
      exact ⟨b, addMinutes_iff.2 ⟨hb, by omega⟩⟩
    obtain ⟨u2, e3⟩ := this
    simp only [if_pos h24, e3, ok_bind, DT.replaceHour, if_pos hfh, Nat.zero_le, if_true]
    exact ⟨_, rfl⟩
  · have hth' : th ≤ 23 := by omega
    simp only [if_neg h24, pure_bind, DT.replaceHour, if_pos hfh, if_pos hth', ok_bind]
    exact ⟨_, rfl⟩

theorem Valid.fromTaf_none {t : DT} (ht : t.valid = true) {v : Valid} (h : Valid.fromTaf none t = .ok v) :
    After { t with minute := 0 } 60 v.from_.time ∧ After v.from_.time 1440 v.until_.time ∧
      v.code = none := by
  unfold Valid.fromTaf at h
  simp only [bind_ok, pure_ok] at h
  obtain ⟨t0, h0, f, h1, u, h2, rfl⟩ := h
  obtain ⟨-, rfl⟩ := replaceMinute_ok h0
  have hv0 : ({ t with minute := 0 } : DT).valid = true := by
    rw [DT.valid_iff] at ht ⊢; exact ⟨ht.1, ht.2.1, by simp⟩
  exact ⟨(addMinutes_after hv0).1 h1, (addMinutes_after (addMinutes_ok h1).1).1 h2, rfl⟩

/-! ### The first day with a number -/

theorem findDay_steps {d f : Nat} {t t' : DT} (ht : t.valid = true) (h : findDay d f t = .ok t') :
    t'.valid = true ∧ t'.day = d ∧ ∃ k : Nat, t'.toMinutes = t.toMinutes + 1440 * k ∧
      ∀ j : Nat, j < k → ∀ v : DT, v.valid = true → v.toMinutes = t.toMinutes + 1440 * j → v.day ≠ d := by
  induction f generalizing t with
  | zero => cases h
  | succ f ih =>
    unfold findDay at h
    split at h
    · next hd => cases h; exact ⟨ht, hd.symm, 0, by omega, by omega⟩
    · next hd =>
      split at h
      · cases h
      · next t1 h1 =>
        obtain ⟨hv1, e1⟩ := addMinutes_ok h1
        obtain ⟨hv, hday, k, hk, hj⟩ := ih hv1 h
        refine ⟨hv, hday, k + 1, by omega, fun j hjk v hvv hvm => ?_⟩
        cases j with
        | zero =>
          rw [toMinutes_inj hvv ht (by omega)]
          exact fun e => hd e.symm
        | succ j => exact hj j (by omega) v hvv (by omega)

theorem findDay_finds {d : Nat} {t v : DT} (ht : t.valid = true) {j : Nat} (hv : v.valid = true)
    (hm : v.toMinutes = t.toMinutes + 1440 * j) (hd : v.day = d) {f : Nat} (hf : j < f) :
    ∃ t', findDay d f t = .ok t' := by
  induction j generalizing t f with
  | zero =>
    obtain ⟨f, rfl⟩ : ∃ g, f = g + 1 := ⟨f - 1, by omega⟩
    unfold findDay
    rw [toMinutes_inj hv ht (by omega)] at hd
    rw [if_pos hd.symm]
    exact ⟨t, rfl⟩
  | succ j ih =>
    obtain ⟨f, rfl⟩ : ∃ g, f = g + 1 := ⟨f - 1, by omega⟩
    unfold findDay
    split
    · exact ⟨t, rfl⟩
    · have r1 := toMinutes_range ht
      have r2 := toMinutes_range hv
      obtain ⟨b, hb, eb⟩ := exists_minutes (n := t.toMinutes + 1440) (by omega) (by omega)
      have e : t.addDays 1 = .ok b := addMinutes_iff.2 ⟨hb, by omega⟩
      rw [e]
      exact ih hb (by omega) (by omega)

theorem findDay_first {d f : Nat} {t t' : DT} (ht : t.valid = true) (h : findDay d f t = .ok t') :
    FirstDay t d (midnight t') := by
  obtain ⟨hv, hd, k, hk, hj⟩ := findDay_steps ht h
  have hm := midnight_valid ht
  have hmv := midnight_valid hv
  obtain ⟨e1, e2, e3⟩ := day_minutes hv hk
  have et := toMinutes_midnight (t := t)
  have em := midnight_minutes t
  have vt := (DT.valid_iff t).1 ht
  have eq : (midnight t').toMinutes = (midnight t).toMinutes + 1440 * k := by omega
  refine ⟨(isTime_iff _).2 hmv, ⟨rfl, rfl⟩, hd, ?_, ?_⟩
  · have := minutes_eq hm
    have := minutes_eq hmv
    omega
  · intro b hb b1 b2 hbd hle
    rw [isTime_iff] at hb
    have m1 := minutes_eq hm
    have m2 := minutes_eq hmv
    have m3 := minutes_eq hb
    have eb := toMinutes_midnight (t := b)
    have eb' := midnight_minutes b
    rcases Nat.lt_or_ge (minutes b) (minutes (midnight t')) with hlt | hge
    · exfalso
      obtain ⟨j, ej⟩ : ∃ j, b.toMinutes = (midnight t).toMinutes + 1440 * j :=
        ⟨toOrd b.year b.month b.day - toOrd t.year t.month t.day, by omega⟩
      have hvv : ({ b with hour := t.hour, minute := t.minute } : DT).valid = true := by
        rw [DT.valid_iff] at hb ⊢
        exact ⟨hb.1, vt.2.1, vt.2.2⟩
      refine hj j (by omega) _ hvv ?_ hbd
      have : ({ b with hour := t.hour, minute := t.minute } : DT).toMinutes =
          (midnight b).toMinutes + t.hour * 60 + t.minute := by rw [midnight_minutes]; rfl
      omega
    · exact hge

theorem Spec.FirstDay.unique {t b b' : DT} {d : Nat} (h : FirstDay t d b) (h' : FirstDay t d b') : b = b' := by
  have h1 := h.first b' h'.exists_ h'.start.1 h'.start.2 h'.day h'.notBefore
  have h2 := h'.first b h.exists_ h.start.1 h.start.2 h.day h.notBefore
  have v1 := (isTime_iff _).1 h.exists_
  have v2 := (isTime_iff _).1 h'.exists_
  have m1 := minutes_eq v1
  have m2 := minutes_eq v2
  exact toMinutes_inj v1 v2 (by omega)

/-- The search finds the day if there is one at all. -/
theorem findDay_exists {d : Nat} {t b : DT} (ht : t.valid = true) (hb : FirstDay t d b) :
    ∃ t', findDay d (maxOrdinal + 1) t = .ok t' := by
  have hbv := (isTime_iff _).1 hb.exists_
  have hm := midnight_valid ht
  have m1 := minutes_eq hm
  have m3 := minutes_eq hbv
  have hle := hb.notBefore
  have et := toMinutes_midnight (t := t)
  have em := midnight_minutes t
  have eb := toMinutes_midnight (t := b)
  have eb' := midnight_minutes b
  have vt := (DT.valid_iff t).1 ht
  have r := toMinutes_range hbv
  have rt := toMinutes_range hm
  have hvv : ({ b with hour := t.hour, minute := t.minute } : DT).valid = true := by
    rw [DT.valid_iff] at hbv ⊢
    exact ⟨hbv.1, vt.2.1, vt.2.2⟩
  have ev : ({ b with hour := t.hour, minute := t.minute } : DT).toMinutes =
      (midnight b).toMinutes + t.hour * 60 + t.minute := by rw [midnight_minutes]; rfl
  obtain ⟨s1, s2⟩ := hb.start
  refine findDay_finds ht (j := toOrd b.year b.month b.day - toOrd t.year t.month t.day) hvv ?_ hb.day ?_
  · omega
  · omega

end Verif
