import Verif.Lemmas.SmallForms
import Verif.Lemmas.Strptime
import Verif.Lemmas.RunwayState
import Verif.Spec.Periods

/-
What the patterns of the period groups and of the TAF temperatures match.
-/

namespace Verif
open Spec

/-- `[01]` and `[12]` as the patterns have them. -/
def cls01 : CC := .set [(48, 48), (49, 49)]
def cls12 : CC := .set [(49, 49), (50, 50)]

def Slot.day (c : Cap) : Slot :=
  Slot.shapes [[CC.one 48, .set [(49, 57)]], [cls12, .set [(48, 57)]], [CC.one 51, cls01]] c
def Slot.hour23 (c : Cap) : Slot := Slot.shapes hourShapes c
/-- Hours up to 24; the first digits are written `[0-1]` in one pattern and `[01]` in another. -/
def Slot.hour24 (k : CC) (c : Cap) : Slot :=
  Slot.shapes [[k, .digit], [CC.one 50, .set [(48, 52)]]] c
def Slot.minute (c : Cap) : Slot := Slot.shapes minuteShapes c

theorem digitsVal_two (a b : Nat) : digitsVal [a, b] = 10 * digitVal a + digitVal b := by
  simp [digitsVal]

theorem digitVal_ascii' {c : Nat} (h : AsciiDigit c) : digitVal c = c - 48 := by
  have := digitVal_ascii (c - 48) (by unfold AsciiDigit at h; omega)
  rwa [show 48 + (c - 48) = c by unfold AsciiDigit at h; omega] at this

theorem AsciiDigit.isDigit {c : Nat} (h : AsciiDigit c) : isDigit c = true :=
  isDigit_ascii (mem_ascii.2 h)

theorem set_one {a b c : Nat} : (CC.set [(a, b)]).mem c = true ↔ a ≤ c ∧ c ≤ b := by
  simp [CC.mem, CC.ranges, inRanges]

theorem mem_cls01 {c : Nat} : cls01.mem c = true ↔ 48 ≤ c ∧ c ≤ 49 := by
  simp [cls01, CC.mem, CC.ranges, inRanges]; omega

theorem mem_cls12 {c : Nat} : cls12.mem c = true ↔ 49 ≤ c ∧ c ≤ 50 := by
  simp [cls12, CC.mem, CC.ranges, inRanges]; omega

theorem shape_two {j k : CC} {t : PyStr} : HasShape [j, k] t ↔
    ∃ a b, t = [a, b] ∧ j.mem a = true ∧ k.mem b = true := by
  constructor
  · rintro ⟨a, _, rfl, ha, b, _, rfl, hb, rfl⟩
    exact ⟨a, b, rfl, ha, hb⟩
  · rintro ⟨a, b, rfl, ha, hb⟩
    exact .cons ha (.cons hb .nil)

theorem hour_shapes {k : CC} (hk01 : ∀ c, k.mem c = true ↔ 48 ≤ c ∧ c ≤ 49) {top : Nat}
    (h1 : 20 ≤ top) (h2 : top ≤ 29) {t : PyStr} :
    (∃ ks ∈ [[k, .digit], [CC.one 50, .set [(48, 28 + top)]]], HasShape ks t) ↔
      HourDigits top t := by
  constructor
  · rintro ⟨ks, hk, hs⟩
    simp only [List.mem_cons, List.not_mem_nil, or_false] at hk
    rcases hk with rfl | rfl
    · obtain ⟨a, b, rfl, ha, hb⟩ := shape_two.1 hs
      rw [hk01] at ha
      have := digitVal_lt b
      refine ⟨a, b, rfl, ⟨by omega, by omega⟩, hb, ?_, by omega⟩
      rw [digitsVal_two, digitVal_ascii' ⟨by omega, by omega⟩]
      omega
    · obtain ⟨a, b, rfl, ha, hb⟩ := shape_two.1 hs
      rw [CC.mem_one] at ha
      rw [set_one] at hb
      have hb' : AsciiDigit b := ⟨by omega, by omega⟩
      refine ⟨a, b, rfl, ⟨by omega, by omega⟩, AsciiDigit.isDigit hb', ?_, fun _ => hb'⟩
      rw [digitsVal_two, digitVal_ascii' ⟨by omega, by omega⟩, digitVal_ascii' hb']
      omega
  · rintro ⟨a, b, rfl, ha, hb, hv, h⟩
    rw [digitsVal_two, digitVal_ascii' ha] at hv
    obtain ⟨ha1, ha2⟩ := ha
    by_cases h50 : a = 50
    · have hb' := h h50
      rw [digitVal_ascii' hb'] at hv
      obtain ⟨hb1, hb2⟩ := hb'
      exact ⟨[CC.one 50, .set [(48, 28 + top)]], by simp,
        shape_two.2 ⟨a, b, rfl, CC.mem_one.2 h50, set_one.2 ⟨by omega, by omega⟩⟩⟩
    · exact ⟨[k, .digit], by simp,
        shape_two.2 ⟨a, b, rfl, (hk01 a).2 ⟨by omega, by omega⟩, hb⟩⟩

theorem Slot.hour23_has {c : Cap} {t : PyStr} {o : Option Cap} :
    (Slot.hour23 c).Has t o ↔ HourDigits 23 t ∧ o = some c := by
  rw [Slot.hour23, Slot.shapes_has, ← hour_shapes (k := .set [(48, 49)]) (fun _ => set_one) (by omega) (by omega)]
  rfl

theorem Slot.hour24_has {k : CC} (hk : ∀ c, k.mem c = true ↔ 48 ≤ c ∧ c ≤ 49) {c : Cap} {t : PyStr}
    {o : Option Cap} : (Slot.hour24 k c).Has t o ↔ HourDigits 24 t ∧ o = some c := by
  rw [Slot.hour24, Slot.shapes_has, ← hour_shapes hk (by omega) (by omega)]

theorem Slot.minute_has {c : Cap} {t : PyStr} {o : Option Cap} :
    (Slot.minute c).Has t o ↔ MinuteDigits t ∧ o = some c := by
  rw [Slot.minute, Slot.shapes_has]
  refine and_congr ?_ Iff.rfl
  constructor
  · rintro ⟨ks, hk, hs⟩
    simp only [minuteShapes, List.mem_cons, List.not_mem_nil, or_false] at hk
    subst hk
    obtain ⟨a, b, rfl, ha, hb⟩ := shape_two.1 hs
    rw [set_one] at ha
    have := digitVal_lt b
    refine ⟨a, b, rfl, ⟨by omega, by omega⟩, hb, ?_⟩
    rw [digitsVal_two, digitVal_ascii' ⟨by omega, by omega⟩]
    omega
  · rintro ⟨a, b, rfl, ha, hb, hv⟩
    rw [digitsVal_two, digitVal_ascii' ha] at hv
    obtain ⟨ha1, ha2⟩ := ha
    exact ⟨[.set [(48, 53)], .digit], by simp [minuteShapes], shape_two.2 ⟨a, b, rfl, set_one.2 ⟨by omega, by omega⟩, hb⟩⟩

theorem Slot.day_has {c : Cap} {t : PyStr} {o : Option Cap} :
    (Slot.day c).Has t o ↔ (∃ d, IsDay d ∧ t = padNat 2 d) ∧ o = some c := by
  rw [Slot.day, Slot.shapes_has]
  refine and_congr ?_ Iff.rfl
  constructor
  · rintro ⟨ks, hk, hs⟩
    have key : ∀ a b, AsciiDigit a → AsciiDigit b → padNat 2 (10 * (a - 48) + (b - 48)) = [a, b] := by
      intro a b ha hb
      have := padNat_of_ascii (s := [a, b]) (by
        intro x hx
        simp only [List.mem_cons, List.not_mem_nil, or_false] at hx
        rcases hx with rfl | rfl <;> exact mem_ascii.2 ‹_›) (by simp)
      rw [digitsVal_two, digitVal_ascii' ha, digitVal_ascii' hb] at this
      exact this
    simp only [List.mem_cons, List.not_mem_nil, or_false] at hk
    rcases hk with rfl | rfl | rfl
    · obtain ⟨a, b, rfl, ha, hb⟩ := shape_two.1 hs
      rw [CC.mem_one] at ha
      rw [set_one] at hb
      exact ⟨_, ⟨by omega, by omega⟩, (key a b ⟨by omega, by omega⟩ ⟨by omega, by omega⟩).symm⟩
    · obtain ⟨a, b, rfl, ha, hb⟩ := shape_two.1 hs
      rw [mem_cls12] at ha
      rw [set_one] at hb
      exact ⟨_, ⟨by omega, by omega⟩, (key a b ⟨by omega, by omega⟩ ⟨by omega, by omega⟩).symm⟩
    · obtain ⟨a, b, rfl, ha, hb⟩ := shape_two.1 hs
      rw [CC.mem_one] at ha
      rw [mem_cls01] at hb
      exact ⟨_, ⟨by omega, by omega⟩, (key a b ⟨by omega, by omega⟩ ⟨by omega, by omega⟩).symm⟩
  · rintro ⟨d, ⟨h1, h2⟩, rfl⟩
    have : ∀ m : Fin 32, 1 ≤ m.val →
        [[CC.one 48, .set [(49, 57)]], [cls12, .set [(48, 57)]], [CC.one 51, cls01]].any
          (subShape (litShape (padNat 2 m))) = true := by decide
    have := this ⟨d, by omega⟩ h1
    obtain ⟨ks, hk, hs⟩ := List.any_eq_true.1 this
    exact ⟨ks, hk, subShape_sound hs (hasShape_lit _)⟩

def validSlots : List Slot :=
  [Slot.day .fmday, Slot.hour23 .fmhour, Slot.lit py!"/", Slot.day .tlday, Slot.hour24 (.set [(48, 49)]) .tlhour]

theorem valid_table : TafRegExp.VALID.exact (altForms [(validSlots, [])]) = true := by
  decide +kernel

def periodSlots : List Slot :=
  [Slot.shapes [litShape py!"FM", litShape py!"TL", litShape py!"AT"] .prefix,
   Slot.hour24 cls01 .hour, Slot.minute .min]

theorem period_table : MetarRegExp.TREND_TIME_PERIOD.exact (altForms [(periodSlots, [])]) = true := by
  decide +kernel

def tafTempSlots : List Slot :=
  [Slot.lit py!"T", Slot.shapes [litShape py!"X", litShape py!"N"] .type, Slot.opt [py!"M"] .sign,
   Slot.digits [2] [] .temp, Slot.lit py!"/", Slot.day .day, Slot.hour23 .hour, Slot.lit py!"Z"]

theorem tafTemp_table : TafRegExp.TEMPERATURE.begins (altForms [(tafTempSlots, [])]) = true := by
  decide +kernel

def changeSlots : List (List Slot × List Cap) :=
  [([Slot.lit py!"TEMPO"], []), ([Slot.lit py!"BECMG"], []),
   ([Slot.lit py!"FM", Slot.day .day, Slot.hour23 .hour, Slot.minute .minute], []),
   ([Slot.lit py!"PROB", ⟨[([.set [(51, 51), (52, 52)]], none)], []⟩,
      ⟨[(litShape py!"0", none), (litShape py!"0_TEMPO", none)], []⟩], [])]

theorem change_table : TafRegExp.CHANGE_INDICATOR.begins (altForms changeSlots) = true := by
  decide +kernel

end Verif
