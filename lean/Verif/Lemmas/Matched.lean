import Verif.Lemmas.NoNewline
import Verif.Lemmas.Plain
import Verif.Lemmas.Periods
import Verif.Lemmas.Wind
import Verif.Lemmas.Visibility
import Verif.Lemmas.RangeRead
import Verif.Lemmas.Weather
import Verif.Lemmas.Recent
import Verif.Lemmas.Temperatures
import Verif.Lemmas.Pressure
import Verif.Lemmas.RunwayState
import Verif.Props.CloudReports
import Verif.Spec.RoundTrip

/-
The groups of a record are matched by the patterns they are written for.
-/

namespace Verif
open Spec MetarRegExp

/-- The pattern matches the text, which has no newline. -/
def Fact (re : RE) (s : PyStr) : Prop := (∃ m, re.match s = some m) ∧ 10 ∉ s

theorem Spec.Reads.fact {γ α : Type} {G : Grammar γ α} {re : RE} {f : Match → Except Exc α}
    (h : Reads G re f) {w : γ} (hw : G.WF w) (hn : 10 ∉ G.text w) : Fact re (G.text w) := by
  obtain ⟨m, x, hm, -⟩ := h.1 w hw
  exact ⟨⟨m, hm⟩, hn⟩

theorem Spec.ReadsIfOk.fact {γ α : Type} {G : Grammar γ α} {re : RE} {f : Match → Except Exc α}
    (h : ReadsIfOk G re f) {w : γ} (hw : G.WF w) (hn : 10 ∉ G.text w) : Fact re (G.text w) := by
  obtain ⟨m, hm, -⟩ := h.1 w hw
  exact ⟨⟨m, hm⟩, hn⟩

theorem type_fact (b : Bool) : Fact TYPE (if b then py!"SPECI" else py!"METAR") := by
  cases b
  · exact ⟨Option.isSome_iff_exists.1 (by decide +kernel), by decide⟩
  · exact ⟨Option.isSome_iff_exists.1 (by decide +kernel), by decide⟩

theorem tafType_fact : Fact TYPE py!"TAF" :=
  ⟨Option.isSome_iff_exists.1 (by decide +kernel), by decide⟩

theorem station_fact {s : PyStr} (h : StationCode s) : Fact STATION s := by
  refine ⟨?_, station_noNl h⟩
  obtain ⟨hl, hc, hh⟩ := h
  match s, hl with
  | [a, b, c, d], _ =>
    have key : ∀ x ∈ [a, b, c, d], (CC.set [(65, 90), (48, 57)]).mem x = true := by
      intro x hx
      have := hc x hx
      simp only [CC.mem, CC.ranges, inRanges, List.any_cons, List.any_nil, Bool.or_false, Bool.or_eq_true,
        Bool.and_eq_true, Nat.ble_eq]
      omega
    have h1 := hh a rfl
    obtain ⟨m, hm, -⟩ := RE.chk_sound (r := STATION)
      (kss := [[.set [(65, 90)], .set [(65, 90), (48, 57)], .set [(65, 90), (48, 57)], .set [(65, 90), (48, 57)]]])
      (caps := []) (by decide +kernel) (ts := [[a, b, c, d]])
      ⟨.cons (set_one.2 h1) (.cons (key b (by simp)) (.cons (key c (by simp)) (.cons (key d (by simp)) .nil))),
        trivial⟩
    exact ⟨m, by simpa using hm⟩

theorem modifier_fact {s : PyStr} (h : s ∈ modifiers) : Fact MODIFIER s := by
  revert s
  have h1 : ∀ s ∈ modifiers, (MODIFIER.match s).isSome ∧ 10 ∉ s := by decide +kernel
  exact fun {s} h => ⟨Option.isSome_iff_exists.1 (h1 s h).1, (h1 s h).2⟩

theorem padNat_two {n : Nat} (h : n < 100) : padNat 2 n = [48 + n / 10, 48 + n % 10] := by
  have key : ∀ k : Fin 100, padNat 2 k.1 = [48 + k.1 / 10, 48 + k.1 % 10] := by decide +kernel
  exact key ⟨n, h⟩

theorem mem_digit_ascii {c : Nat} (h1 : 48 ≤ c) (h2 : c ≤ 57) : CC.digit.mem c = true :=
  AsciiDigit.isDigit ⟨h1, h2⟩

theorem time_fact {d h i : Nat} (hd : 1 ≤ d ∧ d ≤ 31) (hh : h ≤ 23) (hi : i ≤ 59) :
    Fact TIME (timeText d h i) := by
  refine ⟨?_, time_noNl _ _ _⟩
  have hday : ∃ ks ∈ [[CC.one 48, .set [(49, 57)]], [cls12, .set [(48, 57)]], [CC.one 51, cls01]],
      HasShape ks (padNat 2 d) := by
    have := (Slot.day_has (c := .day) (t := padNat 2 d) (o := some .day)).2 ⟨⟨d, hd, rfl⟩, rfl⟩
    rw [Slot.day, Slot.shapes_has] at this
    exact this.1
  have hhour : ∃ ks ∈ [[CC.set [(48, 49)], .digit], [CC.one 50, .set [(48, 52)]]],
      HasShape ks (padNat 2 h) := by
    rw [padNat_two (by omega)]
    by_cases hx : h < 20
    · exact ⟨[.set [(48, 49)], .digit], by simp, shape_two.2 ⟨_, _, rfl, set_one.2 ⟨by omega, by omega⟩,
        mem_digit_ascii (by omega) (by omega)⟩⟩
    · exact ⟨[CC.one 50, .set [(48, 52)]], by simp, shape_two.2 ⟨_, _, rfl, CC.mem_one.2 (by omega),
        set_one.2 ⟨by omega, by omega⟩⟩⟩
  have hmin : HasShape [.set [(48, 53)], .digit] (padNat 2 i) := by
    rw [padNat_two (by omega)]
    exact shape_two.2 ⟨_, _, rfl, set_one.2 ⟨by omega, by omega⟩, mem_digit_ascii (by omega) (by omega)⟩
  have hz : HasShape [CC.one 90] py!"Z" := .cons (CC.mem_one.2 rfl) .nil
  obtain ⟨k1, m1, s1⟩ := hday
  obtain ⟨k2, m2, s2⟩ := hhour
  have hc : ∀ k1 ∈ [[CC.one 48, .set [(49, 57)]], [cls12, .set [(48, 57)]], [CC.one 51, cls01]],
      ∀ k2 ∈ [[CC.set [(48, 49)], .digit], [CC.one 50, .set [(48, 52)]]],
      TIME.chk [k1, k2, [.set [(48, 53)], .digit], [CC.one 90]] [] = true := by
    decide +kernel
  obtain ⟨m, hm, -⟩ := RE.chk_sound (hc k1 m1 k2 m2) (ts := [padNat 2 d, padNat 2 h, padNat 2 i, py!"Z"])
    ⟨s1, s2, hmin, hz, trivial⟩
  exact ⟨m, by simpa [timeText] using hm⟩

theorem wind_fact {w : WindGroup} (h : w.WF) : Fact WIND w.text := metarWind_reads.fact h (wind_noNl h)
theorem variation_fact {w : VariationGroup} (h : w.WF) : Fact WIND_VARIATION w.text :=
  variation_reads.fact h (variation_noNl w)
theorem vis_fact {w : VisGroup} (h : w.WF) : Fact VISIBILITY w.text := metarVis_reads.fact h (vis_noNl h)
theorem minVis_fact {w : VisGroup} (h : minVisGrammar.WF w) : Fact MINIMUM_VISIBILITY w.text :=
  minVis_reads.fact h (vis_noNl h.1)
theorem range_fact {w : RangeGroup} (h : w.WF) : Fact RUNWAY_RANGE w.text := range_reads.fact h (range_noNl h)
theorem weather_fact (w : WeatherGroup) : Fact WEATHER w.text := weather_reads.fact trivial (weather_noNl w)
theorem layer_fact {w : Layer} (h : w.WF) : Fact CLOUD w.text := Props.cloud_reads.fact h (layer_noNl h)
theorem temp_fact {w : TempGroup} (h : w.WF) : Fact TEMPERATURES w.text := temp_reads.fact h (temp_noNl h)
theorem press_fact {w : PressGroup} (h : w.WF) : Fact PRESSURE w.text := press_reads.fact h (press_noNl h)
theorem recent_fact {w : RecentGroup} (h : w.WF) : Fact RECENT_WEATHER w.text :=
  recent_reads.fact h (recent_noNl w)
theorem shear_fact {w : ShearGroup} (h : w.WF) : Fact WINDSHEAR w.text := shear_reads.fact h (shear_noNl h)
theorem sea_fact {w : SeaGroup} (h : w.WF) : Fact SEA_STATE w.text := sea_reads.fact h (sea_noNl h)
theorem rwyState_fact {w : RwyStateGroup} (h : w.WF) : Fact RUNWAY_STATE w.text :=
  rwyState_reads.fact h (rwyState_noNl h)

theorem Fact.quiet {re : RE} {s : PyStr} (h : Fact re s) (hr : re ∈ quietPatterns) : Quiet s := by
  obtain ⟨⟨m, hm⟩, hn⟩ := h
  exact quiet_of_match hr hm hn

theorem Fact.noDigits {re : RE} {s : PyStr} (h : Fact re s)
    (hr : re ∈ [TYPE, TIME, MODIFIER, WIND, WIND_VARIATION]) : s.all isDigit = false := by
  obtain ⟨⟨m, hm⟩, hn⟩ := h
  exact noDigits_of_match hr hm hn

theorem Fact.noMiles {re : RE} {s : PyStr} (h : Fact re s) (hr : re ∈ milelessPatterns) : ¬ Miles s := by
  obtain ⟨⟨m, hm⟩, hn⟩ := h
  exact noMiles_of_match hr hm hn

theorem Fact.ne {re : RE} {s : PyStr} (h : Fact re s) (hr : (re.match []).isNone) : s ≠ [] := by
  rintro rfl
  obtain ⟨⟨m, hm⟩, -⟩ := h
  rw [hm] at hr
  cases hr

/-! ### Recent weather -/

/-- Capital letters. -/
def Lettered (s : PyStr) : Prop := ∀ c ∈ s, 65 ≤ c ∧ c ≤ 90

theorem Lettered.append {s t : PyStr} (hs : Lettered s) (ht : Lettered t) : Lettered (s ++ t) := by
  intro c hc
  rcases List.mem_append.1 hc with h | h
  · exact hs c h
  · exact ht c h

theorem optText_lettered {α : Type} {f : α → PyStr} (h : ∀ a, Lettered (f a)) (o : Option α) :
    Lettered (optText f o) := by
  cases o with
  | none => intro c hc; simp [optText] at hc
  | some a => exact h a

theorem recent_lettered (w : RecentGroup) : Lettered w.text := by
  simp only [RecentGroup.text]
  refine .append (.append (.append (.append ?_ ?_) ?_) ?_) ?_
  · unfold Lettered; decide
  · exact optText_lettered (fun a => by unfold Lettered; cases a <;> decide) _
  · exact optText_lettered (fun a => by unfold Lettered; cases a <;> decide) _
  · exact optText_lettered (fun a => by unfold Lettered; cases a <;> decide) _
  · exact optText_lettered (fun a => by unfold Lettered; cases a <;> decide) _

theorem isSpace_capital {c : Nat} (h : 65 ≤ c ∧ c ≤ 90) : isSpace c = false := by
  have key : ∀ k : Fin 91, 65 ≤ k.1 → isSpace k.1 = false := by decide +kernel
  exact key ⟨c, by omega⟩ h.1

theorem optText_no87 {α : Type} {f : α → PyStr} (h : ∀ a, 87 ∉ f a) (o : Option α) : 87 ∉ optText f o := by
  cases o with
  | none => simp [optText]
  | some a => exact h a

theorem recent_end (w : RecentGroup) : ¬ py!"WS" <:+ w.text := by
  have h0 : 87 ∉ py!"RE" ++ optText Descriptor.text w.descriptor ++ optText Precipitation.text w.precipitation ++
      optText Obscuration.text w.obscuration := by
    simp only [List.mem_append, not_or]
    exact ⟨⟨⟨by decide, optText_no87 (fun a => by cases a <;> decide) _⟩,
      optText_no87 (fun a => by cases a <;> decide) _⟩, optText_no87 (fun a => by cases a <;> decide) _⟩
  intro hs
  simp only [RecentGroup.text] at hs
  cases ho : w.other with
  | none =>
    rw [ho] at hs
    simp only [optText, List.append_nil] at hs h0
    exact h0 (hs.subset (show 87 ∈ py!"WS" by decide))
  | some x =>
    rw [ho] at hs
    have h2 : 2 ≤ x.text.length ∧ ¬ py!"WS" <:+ x.text := by cases x <;> decide
    exact h2.2 (List.suffix_of_suffix_length_le hs (List.suffix_append _ _) h2.1)

theorem recent_quiet (w : RecentGroup) : Quiet w.text := by
  have hl := recent_lettered w
  refine ⟨fun c hc => ?_, fun kw hk hp => ?_, recent_end w⟩
  · have := hl c hc
    exact ⟨isSpace_capital this, by omega, by omega⟩
  · obtain ⟨t, ht⟩ := hp
    simp only [RecentGroup.text] at ht
    have : ∀ kw ∈ openingWords, kw.take 2 ≠ py!"RE" ∧ 2 ≤ kw.length := by decide
    obtain ⟨h1, h2⟩ := this kw hk
    apply h1
    have := congrArg (List.take 2) ht
    rw [List.take_append_of_le_length h2] at this
    rw [this]
    simp

theorem recent_noMiles (w : RecentGroup) : ¬ Miles w.text := by
  rintro ⟨x, y, t, e, hx, -⟩
  have := recent_lettered w 47 (by rw [e]; simp)
  omega

end Verif
