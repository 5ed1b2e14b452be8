import Verif.Lemmas.Wind
import Verif.Props.Exceptions

/-
C16, C17, C20: wind and wind variation groups.
-/

namespace Verif.Props
open Verif.Spec

/-- C16. Every wind group in knots (any direction, speed and gust, `P` or not) is accepted by the
METAR pattern, and by the TAF pattern unless direction or speed are missing. The direction has
exactly the stated degrees, speed and gust are exactly the stated numbers; what is missing gives
`None`; only `VRB` gives a variable direction. -/
theorem C16_knots (w : WindGroup) (hw : w.WF) (hk : w.mps = false) (re : RE)
    (hre : re = MetarRegExp.WIND ∨ re = TafRegExp.WIND ∧ w.Forecast) :
    ∃ m x, re.match w.text = some m ∧ MetarWind.new m = .ok x ∧
      x.direction.value = w.dir.degrees.map whole ∧
      (x.direction.variable_ = true ↔ w.dir = .vrb) ∧
      x.speed = w.speed.number.map whole ∧
      x.gust = w.gustNumber.map whole := by
  have key : ∃ m x, re.match w.text = some m ∧ MetarWind.new m = .ok x ∧ WindSays w x := by
    rcases hre with rfl | ⟨rfl, hf⟩
    · exact metarWind_accept w hw
    · exact tafWind_accept w hw hf
  have hkn : ∀ n v, Knots false n v → v = n.map whole := by
    intro n v h
    cases n <;> exact h
  obtain ⟨m, x, h1, h2, -, h3, h4, h5⟩ := key
  rw [hk] at h4 h5
  exact ⟨m, x, h1, h2, by rw [h3], by rw [h3]; simp, hkn _ _ h4, hkn _ _ h5⟩

/-- C17. The same in metres per second: speed and gust are the stated number divided by 0.51444444
up to a relative error of 1e-14, and `None` if missing. -/
theorem C17_metres_per_second (w : WindGroup) (hw : w.WF) (hk : w.mps = true) (re : RE)
    (hre : re = MetarRegExp.WIND ∨ re = TafRegExp.WIND ∧ w.Forecast) :
    ∃ m x, re.match w.text = some m ∧ MetarWind.new m = .ok x ∧
      x.direction.value = w.dir.degrees.map whole ∧
      (x.direction.variable_ = true ↔ w.dir = .vrb) ∧
      (w.speed.number = none → x.speed = none) ∧
      (∀ n, w.speed.number = some n → ∃ v : F64, x.speed = some v ∧
        Rel (1 / 10 ^ 14) v.val (n / (51444444 / 100000000))) ∧
      (w.gustNumber = none → x.gust = none) ∧
      (∀ n, w.gustNumber = some n → ∃ v : F64, x.gust = some v ∧
        Rel (1 / 10 ^ 14) v.val (n / (51444444 / 100000000))) := by
  have key : ∃ m x, re.match w.text = some m ∧ MetarWind.new m = .ok x ∧ WindSays w x := by
    rcases hre with rfl | ⟨rfl, hf⟩
    · exact metarWind_accept w hw
    · exact tafWind_accept w hw hf
  have hkn : ∀ n v, Knots true (some n) v → ∃ y : F64, v = some y ∧
      Rel (1 / 10 ^ 14) y.val (n / (51444444 / 100000000)) := by
    rintro n v ⟨x, rfl, h⟩
    exact ⟨_, rfl, h⟩
  obtain ⟨m, x, h1, h2, -, h3, h4, h5⟩ := key
  rw [hk] at h4 h5
  refine ⟨m, x, h1, h2, by rw [h3], by rw [h3]; simp, fun h => ?_, fun n h => ?_, fun h => ?_,
    fun n h => ?_⟩
  · rw [h] at h4; exact h4
  · rw [h] at h4; exact hkn n _ h4
  · rw [h] at h5; exact h5
  · rw [h] at h5; exact hkn n _ h5

/-- C16, C17. Nothing but a wind group is accepted (newlines apart, which no group contains). -/
theorem C16_only :
    (∀ s m, MetarRegExp.WIND.match s = some m → 10 ∉ s → ∃ w : WindGroup, w.WF ∧ s = w.text) ∧
    (∀ s m, TafRegExp.WIND.match s = some m → 10 ∉ s →
      ∃ w : WindGroup, w.WF ∧ w.Forecast ∧ s = w.text) :=
  ⟨fun _ _ h hn => metarWind_only h hn, fun _ _ h hn => tafWind_only h hn⟩

/-- C16, C17. The wind of a METAR, a TAF, a trend and a TAF change says what the wind group
decoded in it states, and is empty when no such group was decoded. -/
theorem C16_reports (db : Database) (clock : Clock) (code : PyStr) (a : Args) :
    (∀ r c, Metar.new db clock code a = .ok r →
      Decodes (Metar.handlers db (clock 2) a) (metarGroups r.body) c →
      ReadAt c 4 windGrammar MetarWind.none r.core.wind) ∧
    (∀ r p text c, Metar.new db clock code a = .ok r → p ∈ r.weatherTrends.list →
      p.code = some text → Decodes ChangePeriod.handlers (bodyGroups text) c →
      ReadAt c 3 windGrammar MetarWind.none p.core.wind) ∧
    (∀ r c, Taf.new db clock code a = .ok r →
      Decodes (Taf.handlers db (clock 1) a) (bodyGroups r.body) c →
      ReadAt c 7 tafWindGrammar MetarWind.none r.core.wind) ∧
    (∀ r x c, Taf.new db clock code a = .ok r → x ∈ r.changes.list →
      Decodes ChangeForecasted.handlers (changeGroups x.code) c →
      ReadAt c 2 tafWindGrammar MetarWind.none x.core.wind) := by
  refine ⟨fun r c h hc => ?_, fun r p text c h hp ht hc => ?_, fun r c h hc => ?_,
    fun r x c h hx hc => ?_⟩
  · obtain ⟨_, -, ho, hR, hn⟩ := Metar.new_decodes h hc
    exact metarWind_reads.ifOk.at hR.wind ho hn
  · obtain ⟨_, _, -, ho, -, -, hR, -, hn⟩ := Metar.trend_decodes h hp ht hc
    exact metarWind_reads.ifOk.at hR.wind ho hn
  · obtain ⟨_, _, -, -, ho, hR, hn⟩ := Taf.new_decodes h hc
    exact tafWind_reads.ifOk.at hR.wind ho hn
  · obtain ⟨_, ho, -, -, hR, -, hn⟩ := Taf.change_decodes h hx hc
    exact tafWind_reads.ifOk.at hR.wind ho hn

/-- Groups for the theorems above. -/
example : (WindGroup.mk (.tens 23) true (.digits py!"015") (some (true, py!"27")) false).text =
      py!"230P015GP27KT" ∧
    (WindGroup.mk (.tens 23) true (.digits py!"015") (some (true, py!"27")) false).WF ∧
    (WindGroup.mk (.tens 23) true (.digits py!"015") (some (true, py!"27")) false).speed.number =
      some 15 := by
  refine ⟨by decide, ⟨?_, ⟨by decide, by decide⟩, ?_⟩, by decide⟩
  · show 23 ≤ 36; decide
  rintro p ds ⟨⟩
  exact ⟨by decide, by decide⟩

example : (WindGroup.mk .vrb false .undef2 none true).text = py!"VRB//MPS" ∧
    (WindGroup.mk .vrb false .undef2 none true).WF :=
  ⟨by decide, trivial, trivial, by simp⟩

/-- Reports with a wind group, without one, and with one that is not accepted. -/
example : (match Metar.new sampleDb sampleClock py!"METAR SKBO 151200Z 23015G27KT CAVOK" {} with
    | .ok r => decide (r.core.wind.speed = some ⟨15, false⟩ ∧ r.core.wind.gust = some ⟨27, false⟩ ∧
        r.core.wind.direction = ⟨some ⟨230, false⟩, false⟩)
    | .error _ => false) = true := by decide +kernel
example : (match Metar.new sampleDb sampleClock py!"METAR SKBO 151200Z 37015KT CAVOK" {} with
    | .ok r => decide (r.core.wind = MetarWind.none)
    | .error _ => false) = true := by decide +kernel

/-- C20. Every group `dddVddd` with directions 010 to 360 is accepted and gives both directions
exactly; nothing else is accepted. -/
theorem C20_variation :
    (∀ v : VariationGroup, v.WF → ∃ m x, MetarRegExp.WIND_VARIATION.match v.text = some m ∧
      WindVariation.new m = .ok x ∧
      x.from_ = ⟨some (whole (10 * v.from_)), false⟩ ∧
      x.to = ⟨some (whole (10 * v.to)), false⟩) ∧
    ∀ s m, MetarRegExp.WIND_VARIATION.match s = some m → 10 ∉ s →
      ∃ v : VariationGroup, v.WF ∧ s = v.text := by
  refine ⟨fun v hv => ?_, variation_reads.2⟩
  obtain ⟨m, x, h1, h2, -, h3, h4⟩ := variation_reads.1 v hv
  exact ⟨m, x, h1, h2, h3, h4⟩

/-- C20. The wind variation of a METAR says what the group decoded in it states. -/
theorem C20_report (db : Database) (clock : Clock) (code : PyStr) (a : Args) (r : Metar)
    (h : Metar.new db clock code a = .ok r) (c : List (PyStr × Nat))
    (hc : Decodes (Metar.handlers db (clock 2) a) (metarGroups r.body) c) :
    ReadAt c 5 variationGrammar WindVariation.none r.windVariation := by
  obtain ⟨_, -, ho, hR, hn⟩ := Metar.new_decodes h hc
  exact variation_reads.ifOk.at hR.windVariation ho hn

example : (VariationGroup.mk 9 36).WF ∧ (VariationGroup.mk 9 36).text = py!"090V360" := by
  refine ⟨⟨?_, ?_, ?_, ?_⟩, by decide⟩ <;> decide

end Verif.Props
