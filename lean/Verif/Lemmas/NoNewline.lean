import Verif.Spec.RoundTrip
import Verif.Lemmas.Digits

/-
The texts of well-formed groups contain no newline.
-/

namespace Verif

open Spec

theorem digits_noNl {ds : PyStr} (h : ∀ c ∈ ds, isDigit c = true) : 10 ∉ ds :=
  fun h10 => absurd (h 10 h10) (by decide +kernel)

theorem digit_ne10 {c : Nat} (h : isDigit c = true) : (10 : Nat) ≠ c := by
  rintro rfl
  exact absurd h (by decide +kernel)

theorem padNat_noNl (w n : Nat) : 10 ∉ padNat w n := digits_noNl (padNat_digits w n)

theorem wind_noNl {w : WindGroup} (h : w.WF) : 10 ∉ w.text := by
  obtain ⟨dir, above, speed, gust, mps⟩ := w
  obtain ⟨-, h2, h3⟩ := h
  simp only [WindGroup.text, List.mem_append, not_or]
  refine ⟨⟨⟨⟨?_, ?_⟩, ?_⟩, ?_⟩, ?_⟩
  · cases dir with
    | tens n => exact padNat_noNl _ _
    | _ => decide
  · cases above <;> decide
  · cases speed with
    | digits ds => exact digits_noNl h2.2
    | _ => decide
  · cases gust with
    | none => decide
    | some x =>
      obtain ⟨p, ds⟩ := x
      have := digits_noNl (h3 p ds rfl).2
      cases p <;> simp [gustText, flagText, this]
  · cases mps <;> simp

theorem variation_noNl (v : VariationGroup) : 10 ∉ v.text := by
  simp [VariationGroup.text, padNat_noNl]

theorem vis_noNl {g : VisGroup} (h : g.WF) : 10 ∉ g.text := by
  cases g with
  | cavok => decide
  | metres v dir =>
    obtain ⟨h1, h2⟩ := h
    simp only [VisGroup.text, List.mem_append, not_or]
    constructor
    · cases v with
      | digits ds => exact digits_noNl h1.2
      | undef => decide
    · cases dir with
      | none => simp
      | some d =>
        have : ∀ d ∈ visSuffixes.map (·.1), 10 ∉ d := by decide
        exact this d (h2 d rfl)
  | range r =>
    obtain ⟨b, i, j, f, un⟩ := r
    obtain ⟨h1, h2⟩ := h
    simp only [VisGroup.text, Range.text, List.mem_append, not_or]
    refine ⟨⟨⟨⟨?_, ?_⟩, ?_⟩, ?_⟩, ?_⟩
    · cases b <;> decide
    · cases i with
      | none => simp
      | some ds => exact digits_noNl (h1 ds rfl).2
    · cases j <;> simp
    · cases f with
      | none => simp [fractionText]
      | some x =>
        obtain ⟨a, b⟩ := x
        simp [fractionText, digit_ne10 (h2 a b rfl).1, digit_ne10 (h2 a b rfl).2]
    · cases un <;> decide

theorem runway_noNl {r : RunwayCode} (h : r.WF) : 10 ∉ r.text := by
  simp only [RunwayCode.text, List.mem_append, not_or]
  refine ⟨digits_noNl h.2, ?_⟩
  cases r.side with
  | none => simp [sideText]
  | some s => cases s <;> decide

theorem rangeValue_noNl {v : RangeValue} (h : v.WF) : 10 ∉ v.text := by
  simp only [RangeValue.text, List.mem_append, not_or]
  refine ⟨?_, digits_noNl h.2⟩
  cases v.limit with
  | none => simp [limitText]
  | some s => cases s <;> decide

theorem range_noNl {g : RangeGroup} (h : g.WF) : 10 ∉ g.text := by
  obtain ⟨h1, h2, h3⟩ := h
  simp only [RangeGroup.text, List.mem_append, not_or]
  refine ⟨⟨⟨⟨⟨⟨by decide, runway_noNl h1⟩, by decide⟩, rangeValue_noNl h2⟩, ?_⟩, ?_⟩, ?_⟩
  · cases hg : g.high with
    | none => simp [highText]
    | some v => simp [highText, rangeValue_noNl (h3 v hg)]
  · cases g.feet <;> decide
  · cases g.tendency with
    | none => simp [tendencyText]
    | some s => cases s <;> decide

theorem optText_noNl {α : Type} {f : α → PyStr} (h : ∀ a, 10 ∉ f a) (o : Option α) : 10 ∉ optText f o := by
  cases o with
  | none => simp [optText]
  | some a => exact h a

theorem descriptor_noNl (d : Descriptor) : 10 ∉ d.text := by cases d <;> decide
theorem precipitation_noNl (d : Precipitation) : 10 ∉ d.text := by cases d <;> decide
theorem obscuration_noNl (d : Obscuration) : 10 ∉ d.text := by cases d <;> decide
theorem other_noNl (d : OtherWeather) : 10 ∉ d.text := by cases d <;> decide

theorem weather_noNl (w : WeatherGroup) : 10 ∉ w.text := by
  simp only [WeatherGroup.text, List.mem_append, not_or]
  refine ⟨⟨optText_noNl (fun i => ?_) _, optText_noNl descriptor_noNl _⟩, optText_noNl (fun p => ?_) _⟩
  · cases i <;> decide
  · cases p with
    | prec p => exact precipitation_noNl p
    | obsc p => exact obscuration_noNl p
    | other p => exact other_noNl p
    | missing => decide

theorem recent_noNl (w : RecentGroup) : 10 ∉ w.text := by
  simp only [RecentGroup.text, List.mem_append, not_or]
  exact ⟨⟨⟨⟨by decide, optText_noNl descriptor_noNl _⟩, optText_noNl precipitation_noNl _⟩,
    optText_noNl obscuration_noNl _⟩, optText_noNl other_noNl _⟩

theorem layer_noNl {l : Layer} (h : l.WF) : 10 ∉ l.text := by
  obtain ⟨c, b, k⟩ := l
  simp only [Layer.text, List.mem_append, not_or]
  refine ⟨by cases c <;> decide, ?_, by cases k <;> decide⟩
  cases b with
  | hundreds ds => exact digits_noNl h.2
  | _ => decide

theorem tempPart_noNl {t : TempPart} (h : t.number.WF) : 10 ∉ t.text := by
  obtain ⟨m, n⟩ := t
  simp only [TempPart.text, List.mem_append, not_or]
  constructor
  · cases m with
    | none => simp [minusText]
    | some m => cases m <;> decide
  · cases n with
    | digits ds => exact digits_noNl h.2
    | _ => decide

theorem temp_noNl {g : TempGroup} (h : g.WF) : 10 ∉ g.text := by
  simp only [TempGroup.text, List.mem_append, not_or]
  exact ⟨⟨tempPart_noNl h.1, by decide⟩, tempPart_noNl h.2⟩

theorem press_noNl {g : PressGroup} (h : g.WF) : 10 ∉ g.text := by
  obtain ⟨l, n, i⟩ := g
  simp only [PressGroup.text, List.mem_append, not_or]
  refine ⟨⟨?_, ?_⟩, by cases i <;> simp⟩
  · cases l with
    | none => simp [lettersText]
    | some l => cases l <;> decide
  · cases n with
    | none => decide
    | some ds => exact digits_noNl (h ds rfl).2

theorem shear_noNl {g : ShearGroup} (h : g.WF) : 10 ∉ g.text := by
  obtain ⟨a, r⟩ := g
  simp only [ShearGroup.text, List.mem_append, not_or]
  refine ⟨⟨by decide, by cases a <;> simp⟩, ?_⟩
  cases r with
  | none => decide
  | some r => simp [runway_noNl (h r rfl)]

theorem sea_noNl {g : SeaGroup} (h : g.WF) : 10 ∉ g.text := by
  obtain ⟨m, t, v⟩ := g
  obtain ⟨h1, h2⟩ := h
  simp only [SeaGroup.text, List.mem_append, not_or]
  refine ⟨⟨⟨by decide, by cases m <;> simp⟩, digits_noNl h1.2⟩, ?_⟩
  cases v with
  | state d => simp [SeaValue.text, digit_ne10 h2]
  | height ds => simp [SeaValue.text, digits_noNl h2.2]

theorem oneText_noNl {o : Option Nat} (h : oneWF o) : 10 ∉ oneText o := by
  cases o with
  | none => decide
  | some d => simp [oneText, digit_ne10 (h d rfl)]

theorem twoText_noNl {o : Option PyStr} (h : twoWF o) : 10 ∉ twoText o := by
  cases o with
  | none => decide
  | some d => exact digits_noNl (h d rfl).2

theorem rwyState_noNl {g : RwyStateGroup} (h : g.WF) : 10 ∉ g.text := by
  obtain ⟨r, rep⟩ := g
  obtain ⟨h1, h2⟩ := h
  simp only [RwyStateGroup.text, List.mem_append, not_or]
  refine ⟨⟨⟨by decide, ?_⟩, by decide⟩, ?_⟩
  · cases r with
    | none => simp [runwayText]
    | some r => exact runway_noNl (h1 r rfl)
  · cases rep with
    | snoclo => decide
    | clrd => decide
    | state a b c d =>
      obtain ⟨h1, h2, h3, h4⟩ := h2
      simp [RwyReport.text, oneText_noNl h1, oneText_noNl h2, twoText_noNl h3, twoText_noNl h4]

theorem time_noNl (d h i : Nat) : 10 ∉ timeText d h i := by
  simp [timeText, padNat_noNl]

theorem station_noNl {s : PyStr} (h : StationCode s) : 10 ∉ s := by
  intro h10
  have := h.2.1 10 h10
  omega

end Verif
