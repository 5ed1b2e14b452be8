import Verif.Lemmas.Read
import Verif.Spec.CloudReport
import Verif.Props.Clouds
import Verif.Props.Exceptions

/-
C27 at the level of reports.
-/

namespace Verif.Props
open Verif.Spec

theorem cloud_reads : Spec.Reads cloudGrammar MetarRegExp.CLOUD Cloud.fromMetar := by
  constructor
  · intro l hl
    obtain ⟨c, ⟨m, h1, h2⟩, h3, h4, h5, h6, h7, h8, h9⟩ := C27_cloud_layer l hl
    exact ⟨m, c, h1, h2, h3, h4, h5, h6, h7, h8, h9⟩
  · intro s m hm hn
    obtain ⟨l, c, h1, h2, -⟩ := C27_only_layers s m hm hn
    exact ⟨l, h1, h2⟩

/-- C27. The clouds of a METAR, a trend, a TAF and a TAF change say, in order, what the cloud groups
decoded in it state. -/
theorem C27_reports (db : Database) (clock : Clock) (code : PyStr) (a : Args) :
    (∀ r c, Metar.new db clock code a = .ok r →
      Decodes (Metar.handlers db (clock 2) a) (metarGroups r.body) c →
      ReadAll c 14 17 cloudGrammar r.core.clouds.list) ∧
    (∀ r p text c, Metar.new db clock code a = .ok r → p ∈ r.weatherTrends.list →
      p.code = some text → Decodes ChangePeriod.handlers (bodyGroups text) c →
      ReadAll c 8 11 cloudGrammar p.core.clouds.list) ∧
    (∀ r c, Taf.new db clock code a = .ok r →
      Decodes (Taf.handlers db (clock 1) a) (bodyGroups r.body) c →
      ReadAll c 12 15 cloudGrammar r.core.clouds.list) ∧
    (∀ r x c, Taf.new db clock code a = .ok r → x ∈ r.changes.list →
      Decodes ChangeForecasted.handlers (changeGroups x.code) c →
      ReadAll c 7 10 cloudGrammar x.core.clouds.list) := by
  refine ⟨fun r c h hc => ?_, fun r p text c h hp ht hc => ?_, fun r c h hc => ?_,
    fun r x c h hx hc => ?_⟩
  · obtain ⟨_, -, ho, hR, hn⟩ := Metar.new_decodes h hc
    exact cloud_reads.ifOk.all hR.clouds.1 hn
  · obtain ⟨_, _, -, ho, -, -, hR, -, hn⟩ := Metar.trend_decodes h hp ht hc
    exact cloud_reads.ifOk.all hR.clouds.1 hn
  · obtain ⟨_, _, -, -, ho, hR, hn⟩ := Taf.new_decodes h hc
    exact cloud_reads.ifOk.all hR.clouds.1 hn
  · obtain ⟨_, ho, -, -, hR, -, hn⟩ := Taf.change_decodes h hx hc
    exact cloud_reads.ifOk.all hR.clouds.1 hn

/-- A report with clouds. -/
example : (match Metar.new sampleDb sampleClock
      py!"METAR SKBO 151200Z 23015KT 9999 FEW010 BKN/// OVC100CB 18/17 Q1012 TEMPO SCT020TCU" {} with
    | .ok r => decide (r.core.clouds.list.map (·.oktas) = [some py!"1-2", some py!"5-7", some py!"8"] ∧
        r.core.clouds.list.map (·.height.isSome) = [true, false, true] ∧
        r.weatherTrends.list.map (fun p => p.core.clouds.list.map (·.type)) =
          [[some py!"towering cumulus"]])
    | .error _ => false) = true := by decide +kernel

end Verif.Props
