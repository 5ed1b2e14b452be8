import Verif.Lemmas.Pressure
import Verif.Props.Exceptions

/-
C33, C34: temperature and pressure groups.
-/

namespace Verif.Props
open Verif.Spec

/-- C33. Every temperature group is accepted and gives exactly the stated whole numbers of degrees,
negative with `M` or `-` (`-0.0` for `M00`), `None` for the marks of a missing value; nothing else is
accepted. -/
theorem C33_temperatures :
    (∀ g : TempGroup, g.WF → ∃ m x, MetarRegExp.TEMPERATURES.match g.text = some m ∧
      Temperatures.new m = .ok x ∧
      x.temperature = g.air.degrees ∧ x.dewpoint = g.dew.degrees) ∧
    ∀ s m, MetarRegExp.TEMPERATURES.match s = some m → 10 ∉ s →
      ∃ g : TempGroup, g.WF ∧ s = g.text := by
  refine ⟨fun g hg => ?_, temp_reads.2⟩
  obtain ⟨m, x, h1, h2, -, h3, h4⟩ := temp_reads.1 g hg
  exact ⟨m, x, h1, h2, h3, h4⟩

/-- C33. The temperatures of a METAR are those stated by the temperature group decoded in it. -/
theorem C33_report (db : Database) (clock : Clock) (code : PyStr) (a : Args) (r : Metar)
    (c : List (PyStr × Nat)) (h : Metar.new db clock code a = .ok r)
    (hc : Decodes (Metar.handlers db (clock 2) a) (metarGroups r.body) c) :
    ReadAt c 18 tempGrammar ⟨none, none, none⟩ r.temperatures := by
  obtain ⟨_, -, ho, hR, hn⟩ := Metar.new_decodes h hc
  exact temp_reads.ifOk.at hR.temperatures ho hn

/-- Groups for the theorems above. -/
example : (TempGroup.mk ⟨some .letter, .digits py!"05"⟩ ⟨none, .slashes⟩).text = py!"M05///" ∧
    (TempGroup.mk ⟨some .letter, .digits py!"05"⟩ ⟨none, .slashes⟩).air.degrees = some ⟨-5, false⟩ ∧
    (TempGroup.mk ⟨some .letter, .digits py!"00"⟩ ⟨some .dash, .letterX⟩).text = py!"M00/-XX" ∧
    (TempGroup.mk ⟨some .letter, .digits py!"00"⟩ ⟨some .dash, .letterX⟩).air.degrees =
      some ⟨0, true⟩ := by decide +kernel
example : (TempGroup.mk ⟨some .letter, .digits py!"05"⟩ ⟨none, .slashes⟩).WF := by
  refine ⟨⟨rfl, ?_⟩, trivial⟩
  decide

/-- C34. Every pressure group is accepted. `Qnnnn` and `QNHnnnn` give exactly the stated number;
`Annnn` and `nnnnINS` give the hundredths of inches divided by 0.02953, within 1e-9 hPa; slashes give
`None`. Nothing else is accepted. -/
theorem C34_pressure :
    (∀ g : PressGroup, g.WF → ∃ m x, MetarRegExp.PRESSURE.match g.text = some m ∧
      MetarPressure.new m = .ok x ∧
      (g.number = none → x.value = none) ∧
      (∀ ds, g.number = some ds → g.Hecto → x.value = some (whole (digitsVal ds))) ∧
      (∀ ds, g.number = some ds → g.Inches → ∃ v : Rat, x.value = some ⟨v, false⟩ ∧
        Within (1 / 10 ^ 9) v (digitsVal ds / 100 / (2953 / 100000)))) ∧
    ∀ s m, MetarRegExp.PRESSURE.match s = some m → 10 ∉ s → ∃ g : PressGroup, g.WF ∧ s = g.text := by
  refine ⟨fun g hg => ?_, press_reads.2⟩
  obtain ⟨m, x, h1, h2, h3⟩ := press_reads.1 g hg
  exact ⟨m, x, h1, h2, h3.missing, h3.hecto, h3.inches⟩

/-- C34. A bare number up to 2500 is taken as hectopascals; a larger one as
inches of mercury, though it is hundredths of them: the value is more than 84000 hPa. -/
theorem C34_bare (ds : PyStr) (hl : ds.length = 4) (hd : ∀ c ∈ ds, isDigit c = true) :
    ∃ m x v, MetarRegExp.PRESSURE.match ds = some m ∧ MetarPressure.new m = .ok x ∧
      x.value = some v ∧
      (digitsVal ds ≤ 2500 → v = whole (digitsVal ds)) ∧ (2500 < digitsVal ds →
        Within (1 / 10 ^ 9) v.val (digitsVal ds / (2953 / 100000)) ∧ 84000 < v.val) := by
  have hw : (PressGroup.mk none (some ds) false).WF := by
    intro ds' e
    cases e
    exact ⟨hl, hd⟩
  obtain ⟨m, x, h1, h2, h3⟩ := press_reads.1 _ hw
  have h1 : MetarRegExp.PRESSURE.match ds = some m := by
    rw [← h1]
    simp [pressGrammar, PressGroup.text, lettersText, pressNumberText]
  by_cases hs : digitsVal ds ≤ 2500
  · exact ⟨m, x, _, h1, h2, h3.bareLow ds rfl ⟨rfl, rfl⟩ hs, fun _ => rfl, fun h => by omega⟩
  · obtain ⟨v, e, w⟩ := h3.bareHigh ds rfl ⟨rfl, rfl⟩ (by omega)
    refine ⟨m, x, ⟨v, false⟩, h1, h2, e, fun h => by omega, fun h => ⟨w, ?_⟩⟩
    have w' := w.2
    have i2953 : (2953 / 100000 : Rat)⁻¹ = 100000 / 2953 := by decide +kernel
    have p9 : (1 : Rat) / 10 ^ 9 = 1 / 1000000000 := by decide +kernel
    rw [Rat.div_def (digitsVal ds : Rat), i2953, p9] at w'
    have : (2501 : Rat) ≤ digitsVal ds := by
      have := (Rat.natCast_le_natCast).2 (show 2501 ≤ digitsVal ds by omega)
      simpa using this
    generalize (digitsVal ds : Rat) = q at *
    grind

/-- C34. The pressure of a METAR is the one stated by the last pressure group decoded in it. -/
theorem C34_report (db : Database) (clock : Clock) (code : PyStr) (a : Args) (r : Metar)
    (c : List (PyStr × Nat)) (h : Metar.new db clock code a = .ok r)
    (hc : Decodes (Metar.handlers db (clock 2) a) (metarGroups r.body) c) :
    ReadLast c 19 20 pressGrammar ⟨none, none⟩ r.pressure := by
  obtain ⟨_, -, ho, hR, hn⟩ := Metar.new_decodes h hc
  exact press_reads.ifOk.last hR.pressure hn

/-- Groups for the theorems above. -/
example : (PressGroup.mk (some .A) (some py!"2992") false).text = py!"A2992" ∧
    (PressGroup.mk (some .QNH) (some py!"2992") true).text = py!"QNH2992INS" := by decide
example : (PressGroup.mk (some .A) (some py!"2992") false).WF ∧
    (PressGroup.mk (some .A) (some py!"2992") false).Inches := by
  refine ⟨fun ds e => ?_, .inl rfl⟩
  cases e
  decide
example : digitsVal py!"2992" = 2992 := by decide

/-- A report with two pressure groups: the last one counts. -/
example : (match Metar.new sampleDb sampleClock
      py!"METAR SKBO 151200Z 23015KT 9999 FEW010 M02/M00 A2992 Q1013" {} with
    | .ok r => decide (r.pressure.value = some ⟨1013, false⟩ ∧
        r.temperatures.temperature = some ⟨-2, false⟩ ∧ r.temperatures.dewpoint = some ⟨0, true⟩)
    | .error _ => false) = true := by decide +kernel

end Verif.Props
