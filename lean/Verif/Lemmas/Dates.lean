import Verif.Py.DateTime
import Verif.Lemmas.Except

/-
The proleptic Gregorian calendar of `datetime`: ordinals and dates correspond one to one, and adding
minutes is exact.
-/

namespace Verif

/-- Days before a month, and days in a month, of a common or leap year. -/
def dbmL (leap : Bool) (m : Nat) : Nat := dbm m + (if 2 < m ∧ leap = true then 1 else 0)
def dimL (leap : Bool) (m : Nat) : Nat :=
  match m with
  | 1 => 31 | 2 => if leap then 29 else 28 | 3 => 31 | 4 => 30 | 5 => 31 | 6 => 30
  | 7 => 31 | 8 => 31 | 9 => 30 | 10 => 31 | 11 => 30 | 12 => 31
  | _ => 0
def yearLen (leap : Bool) : Nat := if leap then 366 else 365

theorem daysInMonth_eq (y m : Nat) : daysInMonth y m = dimL (isLeap y) m := rfl
theorem daysBeforeMonth_eq (y m : Nat) : daysBeforeMonth y m = dbmL (isLeap y) m := rfl

theorem dbmL_succ (leap : Bool) (m : Nat) (h1 : 1 ≤ m) (h2 : m ≤ 11) :
    dbmL leap (m + 1) = dbmL leap m + dimL leap m := by
  have : ∀ leap : Bool, ∀ m : Fin 12, 1 ≤ m.val → dbmL leap (m + 1) = dbmL leap m + dimL leap m := by
    decide
  exact this leap ⟨m, by omega⟩ h1

theorem dbmL_one (leap : Bool) : dbmL leap 1 = 0 := by cases leap <;> decide
theorem dbmL_last (leap : Bool) : dbmL leap 12 + 31 = yearLen leap := by cases leap <;> decide
theorem dimL_pos (leap : Bool) (m : Nat) (h1 : 1 ≤ m) (h2 : m ≤ 12) :
    28 ≤ dimL leap m ∧ dimL leap m ≤ 31 := by
  have : ∀ leap : Bool, ∀ m : Fin 13, 1 ≤ m.val → 28 ≤ dimL leap m ∧ dimL leap m ≤ 31 := by decide
  exact this leap ⟨m, by omega⟩ h1

theorem dbmL_mono (leap : Bool) {m m' : Nat} (h1 : 1 ≤ m) (h : m < m') (h2 : m' ≤ 12) :
    dbmL leap m + dimL leap m ≤ dbmL leap m' := by
  have : ∀ leap : Bool, ∀ m : Fin 13, 1 ≤ m.val → ∀ m' : Fin 13, m < m' →
      dbmL leap m + dimL leap m ≤ dbmL leap m' := by decide
  exact this leap ⟨m, by omega⟩ h1 ⟨m', by omega⟩ h

theorem dbmL_bound (leap : Bool) {m : Nat} (h1 : 1 ≤ m) (h2 : m ≤ 12) :
    dbmL leap m + dimL leap m ≤ yearLen leap := by
  have : ∀ leap : Bool, ∀ m : Fin 13, 1 ≤ m.val → dbmL leap m + dimL leap m ≤ yearLen leap := by
    decide
  exact this leap ⟨m, by omega⟩ h1

/-! ### Years -/

/-- The year written in the digits of the 400 year cycle. -/
theorem daysBeforeYear_digits (a b c d : Nat) (hb : b ≤ 3) (hc : c ≤ 24) (hd : d ≤ 3) :
    daysBeforeYear (400 * a + 100 * b + 4 * c + d + 1) =
      146097 * a + 36524 * b + 1461 * c + 365 * d := by
  unfold daysBeforeYear
  simp only
  omega

theorem isLeap_digits (a b c d : Nat) (hb : b ≤ 3) (hc : c ≤ 24) (hd : d ≤ 3) :
    isLeap (400 * a + 100 * b + 4 * c + d + 1) = (d == 3 && (c != 24 || b == 3)) := by
  have h4 : (400 * a + 100 * b + 4 * c + d + 1) % 4 = (d + 1) % 4 := by omega
  have h100 : (400 * a + 100 * b + 4 * c + d + 1) % 100 = (4 * c + d + 1) % 100 := by omega
  have h400 : (400 * a + 100 * b + 4 * c + d + 1) % 400 = (100 * b + 4 * c + d + 1) % 400 := by omega
  unfold isLeap
  rw [h4, h100, h400, Bool.eq_iff_iff]
  simp only [Bool.and_eq_true, Bool.or_eq_true, beq_iff_eq, bne_iff_ne]
  omega

theorem year_digits (y : Nat) (h : 1 ≤ y) : ∃ a b c d, b ≤ 3 ∧ c ≤ 24 ∧ d ≤ 3 ∧
    y = 400 * a + 100 * b + 4 * c + d + 1 :=
  ⟨(y - 1) / 400, (y - 1) % 400 / 100, (y - 1) % 100 / 4, (y - 1) % 4, by omega, by omega, by omega,
    by omega⟩

theorem daysBeforeYear_succ (y : Nat) (h : 1 ≤ y) :
    daysBeforeYear (y + 1) = daysBeforeYear y + yearLen (isLeap y) := by
  obtain ⟨a, b, c, d, hb, hc, hd, rfl⟩ := year_digits y h
  rw [isLeap_digits a b c d hb hc hd, daysBeforeYear_digits a b c d hb hc hd]
  by_cases h1 : d = 3
  · by_cases h2 : c = 24
    · by_cases h3 : b = 3
      · subst h1 h2 h3
        have := daysBeforeYear_digits (a + 1) 0 0 0 (by omega) (by omega) (by omega)
        rw [show 400 * a + 100 * 3 + 4 * 24 + 3 + 1 + 1 = 400 * (a + 1) + 100 * 0 + 4 * 0 + 0 + 1 by
          omega, this]
        simp [yearLen]
        omega
      · subst h1 h2
        have := daysBeforeYear_digits a (b + 1) 0 0 (by omega) (by omega) (by omega)
        rw [show 400 * a + 100 * b + 4 * 24 + 3 + 1 + 1 = 400 * a + 100 * (b + 1) + 4 * 0 + 0 + 1 by
          omega, this]
        simp [yearLen, h3]
        omega
    · subst h1
      have := daysBeforeYear_digits a b (c + 1) 0 (by omega) (by omega) (by omega)
      rw [show 400 * a + 100 * b + 4 * c + 3 + 1 + 1 = 400 * a + 100 * b + 4 * (c + 1) + 0 + 1 by
        omega, this]
      simp [yearLen, h2]
      omega
  · have := daysBeforeYear_digits a b c (d + 1) (by omega) (by omega) (by omega)
    rw [show 400 * a + 100 * b + 4 * c + d + 1 + 1 = 400 * a + 100 * b + 4 * c + (d + 1) + 1 by
      omega, this]
    simp [yearLen, h1]
    omega

theorem daysBeforeYear_mono {y y' : Nat} (h1 : 1 ≤ y) (h : y < y') :
    daysBeforeYear y + yearLen (isLeap y) ≤ daysBeforeYear y' := by
  induction y' with
  | zero => omega
  | succ n ih =>
    rcases Nat.lt_or_ge y n with hlt | hge
    · have := ih hlt
      have := daysBeforeYear_succ n (by omega)
      omega
    · have : y = n := by omega
      subst this
      rw [daysBeforeYear_succ y h1]
      exact Nat.le_refl _

/-! ### Dates -/

/-- A date that exists. -/
def ValidDate (y m d : Nat) : Prop :=
  1 ≤ y ∧ y ≤ 9999 ∧ 1 ≤ m ∧ m ≤ 12 ∧ 1 ≤ d ∧ d ≤ daysInMonth y m

theorem toOrd_pos {y m d : Nat} (h : ValidDate y m d) : 1 ≤ toOrd y m d := by
  obtain ⟨_, _, _, _, h5, _⟩ := h
  unfold toOrd; omega

theorem toOrd_year {y m d : Nat} (h : ValidDate y m d) :
    daysBeforeYear y < toOrd y m d ∧ toOrd y m d ≤ daysBeforeYear y + yearLen (isLeap y) := by
  obtain ⟨_, _, h3, h4, h5, h6⟩ := h
  have := dbmL_bound (isLeap y) h3 h4
  unfold toOrd
  rw [daysBeforeMonth_eq]
  rw [daysInMonth_eq] at h6
  omega

theorem toOrd_le {y m d : Nat} (h : ValidDate y m d) : toOrd y m d ≤ maxOrdinal := by
  have h1 := (toOrd_year h).2
  have h2 : daysBeforeYear 10000 = maxOrdinal := by decide
  have h3 := daysBeforeYear_mono h.1 (Nat.lt_succ_of_le h.2.1)
  rw [h2] at h3
  omega

/-- Ordinals determine the dates. -/
theorem toOrd_inj {y m d y' m' d' : Nat} (h : ValidDate y m d) (h' : ValidDate y' m' d')
    (he : toOrd y m d = toOrd y' m' d') : y = y' ∧ m = m' ∧ d = d' := by
  have hy : y = y' := by
    have a := toOrd_year h
    have b := toOrd_year h'
    rcases Nat.lt_trichotomy y y' with hlt | heq | hgt
    · have := daysBeforeYear_mono h.1 hlt; omega
    · exact heq
    · have := daysBeforeYear_mono h'.1 hgt; omega
  subst hy
  have e1 := h.2.2.2.2.2
  have e2 := h'.2.2.2.2.2
  have e3 := h.2.2.2.2.1
  have e4 := h'.2.2.2.2.1
  unfold toOrd at he
  rw [daysBeforeMonth_eq, daysBeforeMonth_eq] at he
  rw [daysInMonth_eq] at e1 e2
  have hm : m = m' := by
    rcases Nat.lt_trichotomy m m' with hlt | heq | hgt
    · have := dbmL_mono (isLeap y) h.2.2.1 hlt h'.2.2.2.1; omega
    · exact heq
    · have := dbmL_mono (isLeap y) h'.2.2.1 hgt h.2.2.2.1; omega
  subst hm
  omega

/-- The search for the month at the end of `_ord2ymd`, in a year of the given kind: month and day of
day `n` (from 0). -/
def monthDay (leap : Bool) (n : Nat) : Nat × Nat :=
  let month := (n + 50) / 32
  let preceding := dbm month + (if 2 < month ∧ leap then 1 else 0)
  if n < preceding then
    let month := month - 1
    let preceding := preceding -
      ((match month with
        | 1 => 31 | 2 => 28 | 3 => 31 | 4 => 30 | 5 => 31 | 6 => 30
        | 7 => 31 | 8 => 31 | 9 => 30 | 10 => 31 | 11 => 30 | 12 => 31
        | _ => 0) + (if month = 2 ∧ leap then 1 else 0))
    (month, n - preceding + 1)
  else (month, n - preceding + 1)

theorem monthDay_table : ∀ leap : Bool, ∀ n : Fin 366, n.val < yearLen leap →
    1 ≤ (monthDay leap n).1 ∧ (monthDay leap n).1 ≤ 12 ∧ 1 ≤ (monthDay leap n).2 ∧
      (monthDay leap n).2 ≤ dimL leap (monthDay leap n).1 ∧
      dbmL leap (monthDay leap n).1 + (monthDay leap n).2 = n + 1 := by decide +kernel

theorem monthDay_spec (leap : Bool) (n : Nat) (h : n < yearLen leap) :
    1 ≤ (monthDay leap n).1 ∧ (monthDay leap n).1 ≤ 12 ∧ 1 ≤ (monthDay leap n).2 ∧
      (monthDay leap n).2 ≤ dimL leap (monthDay leap n).1 ∧
      dbmL leap (monthDay leap n).1 + (monthDay leap n).2 = n + 1 := by
  have : n < 366 := by unfold yearLen at h; split at h <;> omega
  exact monthDay_table leap ⟨n, this⟩ h

theorem ofOrd_eq (o : Nat) : ofOrd o =
    (let n := o - 1
     let n400 := n / 146097
     let n := n % 146097
     let n100 := n / 36524
     let n := n % 36524
     let n4 := n / 1461
     let n := n % 1461
     let n1 := n / 365
     let n := n % 365
     let year := n400 * 400 + 1 + (n100 * 100 + n4 * 4 + n1)
     if n1 = 4 ∨ n100 = 4 then (year - 1, 12, 31)
     else (year, monthDay (n1 == 3 && (n4 != 24 || n100 == 3)) n)) := by
  unfold ofOrd monthDay
  simp only
  split
  · rfl
  · split <;> split <;> rfl

/-- Every ordinal is the ordinal of exactly one date, the one `_ord2ymd` computes. -/
theorem ofOrd_spec {o : Nat} (h1 : 1 ≤ o) (h2 : o ≤ maxOrdinal) :
    ValidDate (ofOrd o).1 (ofOrd o).2.1 (ofOrd o).2.2 ∧
      toOrd (ofOrd o).1 (ofOrd o).2.1 (ofOrd o).2.2 = o := by
  have key : 1 ≤ (ofOrd o).1 ∧ 1 ≤ (ofOrd o).2.1 ∧ (ofOrd o).2.1 ≤ 12 ∧ 1 ≤ (ofOrd o).2.2 ∧
      (ofOrd o).2.2 ≤ daysInMonth (ofOrd o).1 (ofOrd o).2.1 ∧
      toOrd (ofOrd o).1 (ofOrd o).2.1 (ofOrd o).2.2 = o := by
    rw [ofOrd_eq]
    simp only
    generalize ha : (o - 1) / 146097 = a
    generalize hra : (o - 1) % 146097 = ra
    generalize hb : ra / 36524 = b
    generalize hrb : ra % 36524 = rb
    generalize hc : rb / 1461 = c
    generalize hrc : rb % 1461 = rc
    generalize hd : rc / 365 = d
    generalize hrd : rc % 365 = rd
    by_cases hb4 : b = 4
    · -- the last day of a cycle of 400 years
      rw [if_pos (.inr hb4)]
      have e : a * 400 + 1 + (b * 100 + c * 4 + d) - 1 = 400 * a + 100 * 3 + 4 * 24 + 3 + 1 := by omega
      simp only
      rw [e]
      unfold toOrd
      rw [daysInMonth_eq, daysBeforeMonth_eq, isLeap_digits a 3 24 3 (by omega) (by omega) (by omega),
        daysBeforeYear_digits a 3 24 3 (by omega) (by omega) (by omega)]
      refine ⟨by omega, by decide, by decide, by decide, by decide, ?_⟩
      have : dbmL (3 == 3 && (24 != 24 || 3 == 3)) 12 = 335 := by decide
      rw [this]
      omega
    · by_cases hd4 : d = 4
      · -- the last day of a leap year
        rw [if_pos (.inl hd4)]
        have e : a * 400 + 1 + (b * 100 + c * 4 + d) - 1 = 400 * a + 100 * b + 4 * c + 3 + 1 := by omega
        simp only
        rw [e]
        unfold toOrd
        have hc : c ≠ 24 ∨ b = 3 := by omega
        have hl : (3 == 3 && (c != 24 || b == 3)) = true := by simpa using hc
        rw [daysInMonth_eq, daysBeforeMonth_eq, isLeap_digits a b c 3 (by omega) (by omega) (by omega),
          daysBeforeYear_digits a b c 3 (by omega) (by omega) (by omega), hl]
        refine ⟨by omega, by decide, by decide, by decide, by decide, ?_⟩
        have : dbmL true 12 = 335 := by decide
        rw [this]
        omega
      · rw [if_neg (by omega)]
        have hb3 : b ≤ 3 := by omega
        have hc24 : c ≤ 24 := by omega
        have hd3 : d ≤ 3 := by omega
        have e : a * 400 + 1 + (b * 100 + c * 4 + d) = 400 * a + 100 * b + 4 * c + d + 1 := by omega
        simp only
        rw [e]
        unfold toOrd
        rw [daysInMonth_eq, daysBeforeMonth_eq, isLeap_digits a b c d hb3 hc24 hd3,
          daysBeforeYear_digits a b c d hb3 hc24 hd3]
        have hr : rd < yearLen (d == 3 && (c != 24 || b == 3)) := by
          unfold yearLen
          split <;> omega
        obtain ⟨s1, s2, s3, s4, s5⟩ := monthDay_spec _ rd hr
        refine ⟨by omega, s1, s2, s3, s4, ?_⟩
        omega
  obtain ⟨k1, k2, k3, k4, k5, k6⟩ := key
  have hy : (ofOrd o).1 ≤ 9999 := by
    apply Classical.byContradiction
    intro hy
    have h3 : daysBeforeYear 10000 = maxOrdinal := by decide
    have h4 : daysBeforeYear 10000 ≤ daysBeforeYear (ofOrd o).1 := by
      rcases Nat.lt_or_ge 10000 (ofOrd o).1 with h | h
      · have := daysBeforeYear_mono (by omega) h; omega
      · rw [show (ofOrd o).1 = 10000 by omega]; exact Nat.le_refl _
    have h5 : daysBeforeYear (ofOrd o).1 < toOrd (ofOrd o).1 (ofOrd o).2.1 (ofOrd o).2.2 := by
      unfold toOrd; omega
    omega
  exact ⟨⟨k1, hy, k2, k3, k4, k5⟩, k6⟩

theorem ofOrd_toOrd {y m d : Nat} (h : ValidDate y m d) : ofOrd (toOrd y m d) = (y, m, d) := by
  have hs := ofOrd_spec (toOrd_pos h) (toOrd_le h)
  obtain ⟨h1, h2, h3⟩ := toOrd_inj hs.1 h hs.2
  exact Prod.ext h1 (Prod.ext h2 h3)

/-! ### Date-times -/

theorem DT.valid_iff (t : DT) :
    t.valid = true ↔ ValidDate t.year t.month t.day ∧ t.hour ≤ 23 ∧ t.minute ≤ 59 := by
  unfold DT.valid ValidDate
  simp only [Bool.and_eq_true, decide_eq_true_eq]
  constructor
  · rintro ⟨⟨⟨⟨⟨⟨⟨a, b⟩, c⟩, d⟩, e⟩, f⟩, g⟩, h⟩; exact ⟨⟨a, b, c, d, e, f⟩, g, h⟩
  · rintro ⟨⟨a, b, c, d, e, f⟩, g, h⟩; exact ⟨⟨⟨⟨⟨⟨⟨a, b⟩, c⟩, d⟩, e⟩, f⟩, g⟩, h⟩

/-- The minutes since the origin determine the date-time. -/
theorem toMinutes_inj {t t' : DT} (h : t.valid = true) (h' : t'.valid = true)
    (he : t.toMinutes = t'.toMinutes) : t = t' := by
  rw [DT.valid_iff] at h h'
  unfold DT.toMinutes at he
  have ho : toOrd t.year t.month t.day = toOrd t'.year t'.month t'.day := by omega
  obtain ⟨h1, h2, h3⟩ := toOrd_inj h.1 h'.1 ho
  rw [ho] at he
  have h4 : t.hour = t'.hour := by omega
  have h5 : t.minute = t'.minute := by omega
  cases t; cases t'
  simp_all

/-- The range of the minutes of valid date-times. -/
theorem toMinutes_range {t : DT} (h : t.valid = true) :
    1440 ≤ t.toMinutes ∧ t.toMinutes < (maxOrdinal + 1) * 1440 := by
  rw [DT.valid_iff] at h
  have h1 := toOrd_pos h.1
  have h2 := toOrd_le h.1
  unfold DT.toMinutes
  omega

/-- `addMinutes` computes exactly the date-time so many minutes away, and fails exactly when there
is none. -/
theorem addMinutes_spec (t : DT) (k : Int) :
    (∃ t', t.addMinutes k = .ok t' ∧ t'.valid = true ∧ (t'.toMinutes : Int) = t.toMinutes + k) ∨
      (t.addMinutes k = .error .overflow ∧
        ¬ ∃ t' : DT, t'.valid = true ∧ (t'.toMinutes : Int) = t.toMinutes + k) := by
  unfold DT.addMinutes
  simp only
  split
  · next h =>
    left
    generalize (t.toMinutes : Int) + k = total at *
    have hs := ofOrd_spec (o := (total / 1440).toNat) (by omega) (by omega)
    refine ⟨_, rfl, ?_, ?_⟩
    · rw [DT.valid_iff]
      refine ⟨hs.1, ?_, ?_⟩
      · simp only; omega
      · simp only; omega
    · unfold DT.toMinutes
      simp only
      rw [hs.2]
      omega
  · next h =>
    right
    refine ⟨rfl, ?_⟩
    rintro ⟨t', hv, he⟩
    have := toMinutes_range hv
    unfold maxOrdinal at *
    omega

theorem addMinutes_ok {t t' : DT} {k : Int} (h : t.addMinutes k = .ok t') :
    t'.valid = true ∧ (t'.toMinutes : Int) = t.toMinutes + k := by
  rcases addMinutes_spec t k with ⟨t1, h1, h2, h3⟩ | ⟨h1, _⟩
  · rw [h1] at h; cases h; exact ⟨h2, h3⟩
  · rw [h1] at h; cases h

theorem addMinutes_iff {t t' : DT} {k : Int} :
    t.addMinutes k = .ok t' ↔ t'.valid = true ∧ (t'.toMinutes : Int) = t.toMinutes + k := by
  refine ⟨addMinutes_ok, fun ⟨hv, he⟩ => ?_⟩
  rcases addMinutes_spec t k with ⟨t1, h1, h2, h3⟩ | ⟨_, h1⟩
  · rw [h1, toMinutes_inj h2 hv (by omega)]
  · exact absurd ⟨t', hv, he⟩ h1

theorem addMinutes_zero {t : DT} (h : t.valid = true) : t.addMinutes 0 = .ok t :=
  addMinutes_iff.2 ⟨h, by omega⟩

end Verif
