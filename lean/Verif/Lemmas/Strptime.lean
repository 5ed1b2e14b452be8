import Verif.Lemmas.Dates
import Verif.Lemmas.Forms
import Verif.Lemmas.Digits
import Verif.Lemmas.Captures
import Verif.Model.Base
import Verif.Model.Regexps

/-
What `datetime.strptime(s, "%Y%m%d%H%M")` gives for the texts `Time.__init__` builds.
-/

namespace Verif

/-- The shapes of a two digit month 01-12, day 01-31, hour 00-23 and minute 00-59. -/
def monthShapes : List (List CC) := [[CC.one 48, .set [(49, 57)]], [CC.one 49, .set [(48, 50)]]]
def dayShapes : List (List CC) :=
  [[CC.one 48, .set [(49, 57)]], [.set [(49, 50)], .set [(48, 57)]], [CC.one 51, .set [(48, 49)]]]
def hourShapes : List (List CC) := [[.set [(48, 49)], .digit], [CC.one 50, .set [(48, 51)]]]
/-- The hour 24, which the patterns of the library accept. -/
def hour24 : List CC := [CC.one 50, CC.one 52]
def minuteShapes : List (List CC) := [[.set [(48, 53)], .digit]]

theorem isSpace_digit {c : Nat} (h : isDigit c = true) : isSpace c = false :=
  CC.test_sound (k := .digit) (cc := .space) (by decide +kernel) h

theorem lstrip_digits {s : PyStr} (h : Digits s) : lstrip s = s := by
  cases s with
  | nil => rfl
  | cons c t => simp [lstrip, isSpace_digit (h c (by simp))]

theorem natStr_year {y : Nat} (h1 : 1000 ≤ y) (h2 : y ≤ 9999) :
    HasShape (List.replicate 4 ascii) (natStr y) := by
  have hl : (natStr y).length = 4 := by
    have := natStr_length y 4 (by omega) (by omega)
    have hv := digitsVal_lt (natStr y)
    rw [natStr_val] at hv
    have : ¬ (natStr y).length ≤ 3 := by
      intro h
      have := Nat.pow_le_pow_right (n := 10) (by omega) h
      omega
    omega
  have := hasShape_of_all (natStr_ascii y)
  rwa [hl] at this

theorem padNat_month {m : Nat} (h1 : 1 ≤ m) (h2 : m ≤ 12) :
    ∃ ks ∈ monthShapes, HasShape ks (padNat 2 m) := by
  have : ∀ m : Fin 13, 1 ≤ m.val → monthShapes.any (subShape (litShape (padNat 2 m))) = true := by
    decide
  have := this ⟨m, by omega⟩ h1
  obtain ⟨ks, hk, hs⟩ := List.any_eq_true.1 this
  exact ⟨ks, hk, subShape_sound hs (hasShape_lit _)⟩

def strptimeCaps : List (Cap × Option Nat) :=
  [(.sY, some 0), (.sm, some 1), (.sd, some 2), (.sH, some 3), (.sM, some 4)]

theorem strptime_forms : ∀ km ∈ monthShapes, ∀ kd ∈ dayShapes, ∀ kh ∈ hourShapes,
    ∀ ki ∈ minuteShapes,
      strptimeRE.chk [List.replicate 4 ascii, km, kd, kh, ki] strptimeCaps = true := by
  decide +kernel

/-- With hour 24 the pattern stops one character before the end. -/
theorem strptime_forms24 : ∀ km ∈ monthShapes, ∀ kd ∈ dayShapes, ∀ ki ∈ minuteShapes,
    (match strptimeRE.matchA (List.replicate 4 ascii ++ km ++ kd ++ hour24 ++ ki) with
      | some (some (n, _)) => n == 11
      | _ => false) = true := by
  decide +kernel

theorem digits_of_shapes {l : List (List CC)} (hl : l.all someDigits = true) {s : PyStr}
    (h : ∃ ks ∈ l, HasShape ks s) : s ≠ [] ∧ Digits s := by
  obtain ⟨ks, hk, hs⟩ := h
  exact someDigits_sound (List.all_eq_true.1 hl ks hk) hs

theorem strptime_eq {y mo : Nat} (hy1 : 1000 ≤ y) (hy2 : y ≤ 9999) (hm1 : 1 ≤ mo) (hm2 : mo ≤ 12)
    {d h i : PyStr} (hd : ∃ ks ∈ dayShapes, HasShape ks d) (hh : ∃ ks ∈ hourShapes, HasShape ks h)
    (hi : ∃ ks ∈ minuteShapes, HasShape ks i) :
    strptime (natStr y ++ padNat 2 mo ++ d ++ h ++ i) =
      if (DT.mk y mo (digitsVal d) (digitsVal h) (digitsVal i)).valid then
        .ok ⟨y, mo, digitsVal d, digitsVal h, digitsVal i⟩ else .error .value := by
  have hY := natStr_year hy1 hy2
  obtain ⟨km, hkm, hsm⟩ := padNat_month hm1 hm2
  have dd := digits_of_shapes (by decide +kernel) hd
  have dh := digits_of_shapes (by decide +kernel) hh
  have di := digits_of_shapes (by decide +kernel) hi
  obtain ⟨kd, hkd, hsd⟩ := hd
  obtain ⟨kh, hkh, hsh⟩ := hh
  obtain ⟨ki, hki, hsi⟩ := hi
  have hs : Shapes [List.replicate 4 ascii, km, kd, kh, ki] [natStr y, padNat 2 mo, d, h, i] :=
    ⟨hY, hsm, hsd, hsh, hsi, trivial⟩
  have hc := strptime_forms km hkm kd hkd kh hkh ki hki
  obtain ⟨m, hm, -, hg⟩ := RE.chk_sound hc hs
  have hst := RE.chk_stop hc hs hm
  have e : ([natStr y, padNat 2 mo, d, h, i] : List PyStr).flatten =
      natStr y ++ padNat 2 mo ++ d ++ h ++ i := by simp
  rw [e] at hm hst
  have gY := hg _ (show (Cap.sY, some 0) ∈ strptimeCaps by simp [strptimeCaps])
  have gm := hg _ (show (Cap.sm, some 1) ∈ strptimeCaps by simp [strptimeCaps])
  have gd := hg _ (show (Cap.sd, some 2) ∈ strptimeCaps by simp [strptimeCaps])
  have gH := hg _ (show (Cap.sH, some 3) ∈ strptimeCaps by simp [strptimeCaps])
  have gM := hg _ (show (Cap.sM, some 4) ∈ strptimeCaps by simp [strptimeCaps])
  simp at gY gm gd gH gM
  unfold strptime
  rw [hm]
  simp only
  rw [if_neg (by simp [hst])]
  have hY' := lstrip_digits (natStr_digits y)
  have hm' := lstrip_digits (padNat_digits 2 mo)
  simp only [strptimeInt, gY, gm, gd, gH, gM, Option.getD_some, hY', hm', lstrip_digits dd.2,
    lstrip_digits dh.2, lstrip_digits di.2, natStr_val, padNat_val]

theorem strptime_24 {y mo : Nat} (hy1 : 1000 ≤ y) (hy2 : y ≤ 9999) (hm1 : 1 ≤ mo) (hm2 : mo ≤ 12)
    {d h i : PyStr} (hd : ∃ ks ∈ dayShapes, HasShape ks d) (hh : HasShape hour24 h)
    (hi : ∃ ks ∈ minuteShapes, HasShape ks i) :
    strptime (natStr y ++ padNat 2 mo ++ d ++ h ++ i) = .error .value := by
  have hY := natStr_year hy1 hy2
  obtain ⟨km, hkm, hsm⟩ := padNat_month hm1 hm2
  obtain ⟨kd, hkd, hsd⟩ := hd
  obtain ⟨ki, hki, hsi⟩ := hi
  have hs := (((hY.append hsm).append hsd).append hh).append hsi
  have hc := strptime_forms24 km hkm kd hkd ki hki
  have hl := hs.length
  have l1 : ∀ k ∈ monthShapes, k.length = 2 := by decide
  have l2 : ∀ k ∈ dayShapes, k.length = 2 := by decide
  have l3 : ∀ k ∈ minuteShapes, k.length = 2 := by decide
  simp only [List.length_append, List.length_replicate, l1 km hkm, l2 kd hkd, l3 ki hki,
    show hour24.length = 2 from rfl] at hl
  unfold strptime
  generalize hma : strptimeRE.matchA (List.replicate 4 ascii ++ km ++ kd ++ hour24 ++ ki) = r at hc
  split at hc
  · next n cs =>
    rw [RE.matchA_some hs hma]
    simp only
    have hn : n = 11 := by simpa using hc
    rw [if_pos]
    simp only [List.length_append]
    omega
  · cases hc

/-- The hour of a time group: 00-23, or 24. -/
theorem hour_cases {h : PyStr}
    (hh : ∃ ks ∈ ([[.set [(48, 49)], .digit], [CC.one 50, .set [(48, 52)]]] : List (List CC)),
      HasShape ks h) :
    (∃ ks ∈ hourShapes, HasShape ks h) ∨ HasShape hour24 h := by
  obtain ⟨ks, hk, hs⟩ := hh
  simp only [List.mem_cons, List.not_mem_nil, or_false] at hk
  rcases hk with rfl | rfl
  · exact .inl ⟨_, by simp [hourShapes], hs⟩
  · obtain ⟨a, t, rfl, ha, b, u, rfl, hb, hu⟩ := hs
    cases hu
    by_cases h52 : b = 52
    · subst h52
      exact .inr ⟨a, [52], rfl, ha, 52, [], rfl, by decide, rfl⟩
    · refine .inl ⟨[CC.one 50, .set [(48, 51)]], by simp [hourShapes], a, [b], rfl, ha, b, [], rfl, ?_, rfl⟩
      simp [CC.mem, CC.ranges, inRanges] at hb ⊢
      omega

/-- What the three groups of a time group hold. -/
theorem time_groups {g : PyStr} {m : Match} (hm : MetarRegExp.TIME.match g = some m) :
    ∃ d h i, m.group .day = some d ∧ m.group .hour = some h ∧ m.group .min = some i ∧
      (∃ ks ∈ dayShapes, HasShape ks d) ∧
      ((∃ ks ∈ hourShapes, HasShape ks h) ∨ HasShape hour24 h) ∧
      (∃ ks ∈ minuteShapes, HasShape ks i) := by
  obtain ⟨d, hd⟩ := RE.must_group (n := .day) (by decide +kernel) hm
  obtain ⟨h, hh⟩ := RE.must_group (n := .hour) (by decide +kernel) hm
  obtain ⟨i, hi⟩ := RE.must_group (n := .min) (by decide +kernel) hm
  refine ⟨d, h, i, hd, hh, hi, ?_, hour_cases ?_, ?_⟩
  · exact RE.grpShapes_sound (by decide +kernel) hm hd
  · exact RE.grpShapes_sound (by decide +kernel) hm hh
  · exact RE.grpShapes_sound (by decide +kernel) hm hi

theorem hour_le {h : PyStr} (hh : ∃ ks ∈ hourShapes, HasShape ks h) : digitsVal h ≤ 23 := by
  obtain ⟨ks, hk, hs⟩ := hh
  have : ∀ ks ∈ hourShapes, maxVal ks ≤ 23 := by decide
  exact Nat.le_trans (maxVal_sound hs) (this ks hk)

theorem hour24_val {h : PyStr} (hh : HasShape hour24 h) : digitsVal h = 24 := by
  obtain ⟨a, t, rfl, ha, b, u, rfl, hb, hu⟩ := hh
  cases hu
  rw [CC.mem_one.1 ha, CC.mem_one.1 hb]
  decide

theorem year_month_text {now : Now} {y mo : Option Int} {y' mo' : Nat}
    (hy : y.getD now.year = y') (hm : mo.getD now.month = mo') :
    intStr (y.getD now.year) ++ padInt 2 (mo.getD now.month) = natStr y' ++ padNat 2 mo' := by
  rw [hy, hm]; rfl

/-- The year and month used by `Time.__init__`: the given ones, or those of the clock. -/
theorem Time.fromMetar_some {now : Now} {y mo : Option Int} {y' mo' : Nat}
    (hy : y.getD now.year = (y' : Int)) (hmo : mo.getD now.month = (mo' : Int)) (hy1 : 1000 ≤ y')
    (hy2 : y' ≤ 9999) (hm1 : 1 ≤ mo') (hm2 : mo' ≤ 12) {g : PyStr} {m : Match}
    (hm : MetarRegExp.TIME.match g = some m) :
    ∃ d h i, m.group .day = some d ∧ m.group .hour = some h ∧ m.group .min = some i ∧
      Digits d ∧ Digits h ∧ Digits i ∧ digitsVal h ≤ 24 ∧ digitsVal i ≤ 59 ∧
      Time.fromMetar now (some m) y mo =
        if (DT.mk y' mo' (digitsVal d) (digitsVal h) (digitsVal i)).valid then
          .ok ⟨groupCode (some g), ⟨y', mo', digitsVal d, digitsVal h, digitsVal i⟩⟩
        else .error .value := by
  obtain ⟨d, h, i, gd, gh, gi, hd, hh, hi⟩ := time_groups hm
  have hiv : digitsVal i ≤ 59 := by
    obtain ⟨ks, hk, hs⟩ := hi
    have : ∀ ks ∈ minuteShapes, maxVal ks ≤ 59 := by decide
    exact Nat.le_trans (maxVal_sound hs) (this ks hk)
  have hhd : Digits h ∧ digitsVal h ≤ 24 := by
    rcases hh with hh | hh
    · have := hour_le hh
      exact ⟨(digits_of_shapes (by decide +kernel) hh).2, by omega⟩
    · exact ⟨(someDigits_sound (ks := hour24) (by decide +kernel) hh).2,
        Nat.le_of_eq (hour24_val hh)⟩
  refine ⟨d, h, i, gd, gh, gi, (digits_of_shapes (by decide +kernel) hd).2, hhd.1,
    (digits_of_shapes (by decide +kernel) hi).2, hhd.2, hiv, ?_⟩
  unfold Time.fromMetar Time.new
  simp only [gd, gh, gi, Option.getD_some, RE.match_string hm]
  rw [year_month_text hy hmo]
  rcases hh with hh | hh
  · rw [strptime_eq hy1 hy2 hm1 hm2 hd hh hi]
    by_cases hv : (DT.mk y' mo' (digitsVal d) (digitsVal h) (digitsVal i)).valid = true
    · simp only [if_pos hv]
    · simp only [if_neg hv]
  · rw [strptime_24 hy1 hy2 hm1 hm2 hd hh hi, if_neg]
    rw [DT.valid_iff, hour24_val hh]
    simp

/-- Without a time group: midnight of the first day of the month. -/
theorem Time.new_none {now : Now} {y mo : Option Int} {y' mo' : Nat}
    (hy : y.getD now.year = (y' : Int)) (hmo : mo.getD now.month = (mo' : Int)) (hy1 : 1000 ≤ y')
    (hy2 : y' ≤ 9999) (hm1 : 1 ≤ mo') (hm2 : mo' ≤ 12) :
    Time.new now none none none none mo y = .ok ⟨none, ⟨y', mo', 1, 0, 0⟩⟩ := by
  unfold Time.new
  simp only [Option.getD_none]
  rw [year_month_text hy hmo, strptime_eq hy1 hy2 hm1 hm2]
  · have e1 : digitsVal py!"01" = 1 := by decide
    have e2 : digitsVal py!"00" = 0 := by decide
    rw [e1, e2, if_pos]
    · rfl
    · rw [DT.valid_iff]
      refine ⟨⟨by simp only; omega, hy2, hm1, hm2, Nat.le_refl _, ?_⟩, by simp, by simp⟩
      simp only
      rw [daysInMonth_eq]
      have := (dimL_pos (isLeap y') mo' hm1 hm2).1
      omega
  · exact ⟨_, by simp [dayShapes], subShape_sound (a := litShape py!"01")
      (b := [CC.one 48, .set [(49, 57)]]) (by decide) (hasShape_lit _)⟩
  · exact ⟨_, by simp [hourShapes], subShape_sound (a := litShape py!"00")
      (b := [.set [(48, 49)], .digit]) (by decide) (hasShape_lit _)⟩
  · exact ⟨_, by simp [minuteShapes], subShape_sound (a := litShape py!"00")
      (b := [.set [(48, 53)], .digit]) (by decide) (hasShape_lit _)⟩

end Verif
