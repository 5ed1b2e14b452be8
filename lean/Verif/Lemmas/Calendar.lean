import Verif.Spec.Calendar
import Verif.Lemmas.Dates

/- The calendar of the specification is that of `datetime`. -/

namespace Verif

theorem isLeap_iff (y : Nat) : isLeap y = true ↔ Spec.LeapYear y := by
  unfold isLeap Spec.LeapYear
  simp only [Bool.and_eq_true, Bool.or_eq_true, beq_iff_eq, bne_iff_ne]
  by_cases h : y % 100 = 0 <;> simp [h]

/-- The lengths of the months of a common or leap year. -/
def mlL (leap : Bool) : List Nat :=
  [31, if leap then 29 else 28, 31, 30, 31, 30, 31, 31, 30, 31, 30, 31]

theorem monthLengths_eq (y : Nat) : Spec.monthLengths y = mlL (isLeap y) := by
  unfold Spec.monthLengths mlL
  simp only [isLeap_iff]

theorem mlL_get (leap : Bool) (m : Nat) (h1 : 1 ≤ m) (h2 : m ≤ 12) :
    (mlL leap)[m - 1]? = some (dimL leap m) := by
  have : ∀ leap : Bool, ∀ m : Fin 13, 1 ≤ m.val → (mlL leap)[m.val - 1]? = some (dimL leap m) := by
    decide
  exact this leap ⟨m, by omega⟩ h1

theorem mlL_take (leap : Bool) (m : Nat) (h1 : 1 ≤ m) (h2 : m ≤ 12) :
    ((mlL leap).take (m - 1)).sum = dbmL leap m := by
  have : ∀ leap : Bool, ∀ m : Fin 13, 1 ≤ m.val → ((mlL leap).take (m.val - 1)).sum = dbmL leap m := by
    decide
  exact this leap ⟨m, by omega⟩ h1

theorem isTime_iff (t : DT) : Spec.IsTime t ↔ t.valid = true := by
  rw [DT.valid_iff]
  constructor
  · rintro ⟨h1, h2, ⟨h3, n, h4, h5⟩, h6, h7⟩
    rw [monthLengths_eq, mlL_get _ _ h2.1 h2.2] at h4
    cases h4
    exact ⟨⟨h1.1, h1.2, h2.1, h2.2, h3, h5⟩, h6, h7⟩
  · rintro ⟨⟨h1, h2, h3, h4, h5, h6⟩, h7, h8⟩
    refine ⟨⟨h1, h2⟩, ⟨h3, h4⟩, ⟨h5, dimL (isLeap t.year) t.month, ?_, h6⟩, h7, h8⟩
    rw [monthLengths_eq, mlL_get _ _ h3 h4]

theorem daysOfYears_eq (n : Nat) : Spec.daysOfYears n = daysBeforeYear (n + 1) := by
  induction n with
  | zero => rfl
  | succ n ih =>
    unfold Spec.daysOfYears
    rw [ih, daysBeforeYear_succ (n + 1) (by omega), monthLengths_eq]
    congr 1
    cases isLeap (n + 1) <;> rfl

theorem minutes_eq {t : DT} (h : t.valid = true) : Spec.minutes t + 1440 = t.toMinutes := by
  rw [DT.valid_iff] at h
  obtain ⟨⟨h1, h2, h3, h4, h5, h6⟩, h7, h8⟩ := h
  unfold Spec.minutes DT.toMinutes toOrd
  rw [daysOfYears_eq, Spec.daysOfMonths, monthLengths_eq, mlL_take _ _ h3 h4, daysBeforeMonth_eq,
    show t.year - 1 + 1 = t.year by omega]
  omega

/-- Adding minutes, in the words of the specification. -/
theorem addMinutes_after {t t' : DT} {k : Int} (hv : t.valid = true) :
    t.addMinutes k = .ok t' ↔ Spec.After t k t' := by
  rw [addMinutes_iff, Spec.After, isTime_iff]
  constructor
  · rintro ⟨h1, h2⟩
    have := minutes_eq h1
    have := minutes_eq hv
    exact ⟨h1, by omega⟩
  · rintro ⟨h1, h2⟩
    have := minutes_eq h1
    have := minutes_eq hv
    exact ⟨h1, by omega⟩

theorem After.unique {t t1 t2 : DT} {k : Int} (h1 : Spec.After t k t1) (h2 : Spec.After t k t2) :
    t1 = t2 := by
  obtain ⟨v1, e1⟩ := h1
  obtain ⟨v2, e2⟩ := h2
  rw [isTime_iff] at v1 v2
  refine toMinutes_inj v1 v2 ?_
  have := minutes_eq v1
  have := minutes_eq v2
  omega

end Verif
