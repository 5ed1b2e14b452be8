import Verif.Props.CloudReports
import Verif.Props.Time

/-
C28, C29 and C31 at the level of reports: ceiling, flight rules and the CAVOK analysis of METARs,
trends, TAFs and TAF changes, in terms of the cloud groups of the text.
-/

namespace Verif.Props
open Verif.Spec

/-- What is computed from the clouds decoded from the layers `ls`. -/
structure Derived (ls : List Layer) (k : Core) : Prop where
  ceiling : ceiling k.clouds.list = .ok true ↔ ∃ pre l post, ls = pre ++ l :: post ∧ MostlyCovered l ∧
    (∃ n, l.base.hundredsOfFeet = some n ∧ 100 * n ≤ 1500) ∧
    ∀ p ∈ pre, MostlyCovered p → ∃ n, p.base.hundredsOfFeet = some n
  raises : Verif.ceiling k.clouds.list = .error .type ↔ ∃ pre l post, ls = pre ++ l :: post ∧
    MostlyCovered l ∧ l.base.hundredsOfFeet = none ∧
    ∀ p ∈ pre, MostlyCovered p → ∃ n, p.base.hundredsOfFeet = some n ∧ 1500 < 100 * n
  none : Verif.ceiling k.clouds.list = .ok false ↔
    ∀ l ∈ ls, MostlyCovered l → ∃ n, l.base.hundredsOfFeet = some n ∧ 1500 < 100 * n
  rules : k.flightRules = (categoriesFt.find? fun t =>
    decide ((∃ n, ((ls.find? Layer.makesCeiling).bind (·.base.hundredsOfFeet)) = some n ∧ n < t.2.1) ∨
      Below k.prevailing.vis t.2.2)).map (·.1)
  cavok : ∀ isSame, (k.shouldBeCavok isSame).1 = .ok true ↔
    k.weathers.list = [] ∧ ls ≠ [] ∧ (∃ v, k.prevailing.vis = some v ∧ 10000 ≤ v.val) ∧
    (∀ l ∈ ls, MostlyCovered l → ∃ n, l.base.hundredsOfFeet = some n) ∧ ∀ l ∈ ls, Harmless isSame l

theorem allDecode_of {gs : List PyStr} {cs : List Cloud}
    (h : Each (fun g x => ∃ m, MetarRegExp.CLOUD.match g = some m ∧ Cloud.fromMetar m = .ok x) gs cs)
    (hn : ∀ g ∈ gs, 10 ∉ g) :
    ∃ ls : List Layer, gs = ls.map Layer.text ∧ (∀ l ∈ ls, l.WF) ∧ AllDecode ls cs := by
  induction h with
  | nil => exact ⟨[], rfl, by simp, trivial⟩
  | @cons g x gs cs h _ ih =>
    obtain ⟨m, hm, hx⟩ := h
    obtain ⟨l, c, hl, rfl, hc⟩ := C27_only_layers g m hm (hn g (by simp))
    obtain ⟨ls, rfl, hw, hd⟩ := ih fun g hg => hn g (by simp [hg])
    refine ⟨l :: ls, rfl, ?_, ⟨m, hm, hx⟩, hd⟩
    intro l' hl'
    rcases List.mem_cons.1 hl' with rfl | h
    · exact hl
    · exact hw l' h

theorem derived {c : List (PyStr × Nat)} {lo hi : Nat} {k : Core}
    (h : FromGroups c lo hi MetarRegExp.CLOUD Cloud.fromMetar k.clouds.list ∧ k.clouds.n = 0)
    (hn : ∀ g i, (g, i) ∈ c → 10 ∉ g) :
    ∃ ls : List Layer, taken c lo hi = ls.map Layer.text ∧ (∀ l ∈ ls, l.WF) ∧ Derived ls k := by
  obtain ⟨ls, e, hw, hd⟩ := allDecode_of h.1 fun g hg => by
    obtain ⟨i, -, -, hi⟩ := taken_mem hg
    exact hn g i hi
  obtain ⟨c1, c2, c3, -⟩ := C28_ceiling ls k.clouds.list hw hd
  exact ⟨ls, e, hw, c1, c2, c3, C29_flight_rules_layers _ ls _ hw hd,
    fun isSame => C31_should_be_cavok isSame k ls hw hd h.2⟩

/-- C28, C29 and C31. The ceiling, the flight rules and the CAVOK analysis of a METAR, a trend, a TAF
and a TAF change are those of the layers written in it. -/
theorem C28_reports (db : Database) (clock : Clock) (code : PyStr) (a : Args) :
    (∀ r c, Metar.new db clock code a = .ok r →
      Decodes (Metar.handlers db (clock 2) a) (metarGroups r.body) c →
      ∃ ls : List Layer, taken c 14 17 = ls.map Layer.text ∧ (∀ l ∈ ls, l.WF) ∧ Derived ls r.core) ∧
    (∀ r p text c, Metar.new db clock code a = .ok r → p ∈ r.weatherTrends.list →
      p.code = some text → Decodes ChangePeriod.handlers (bodyGroups text) c →
      ∃ ls : List Layer, taken c 8 11 = ls.map Layer.text ∧ (∀ l ∈ ls, l.WF) ∧ Derived ls p.core) ∧
    (∀ r c, Taf.new db clock code a = .ok r →
      Decodes (Taf.handlers db (clock 1) a) (bodyGroups r.body) c →
      ∃ ls : List Layer, taken c 12 15 = ls.map Layer.text ∧ (∀ l ∈ ls, l.WF) ∧ Derived ls r.core) ∧
    (∀ r x c, Taf.new db clock code a = .ok r → x ∈ r.changes.list →
      Decodes ChangeForecasted.handlers (changeGroups x.code) c →
      ∃ ls : List Layer, taken c 7 10 = ls.map Layer.text ∧ (∀ l ∈ ls, l.WF) ∧ Derived ls x.core) := by
  refine ⟨fun r c h hc => ?_, fun r p text c h hp ht hc => ?_, fun r c h hc => ?_,
    fun r x c h hx hc => ?_⟩
  · obtain ⟨_, -, ho, hR, hn⟩ := Metar.new_decodes h hc
    exact derived hR.clouds hn
  · obtain ⟨_, _, -, ho, -, -, hR, -, hn⟩ := Metar.trend_decodes h hp ht hc
    exact derived hR.clouds hn
  · obtain ⟨_, _, -, -, ho, hR, hn⟩ := Taf.new_decodes h hc
    exact derived hR.clouds hn
  · obtain ⟨_, ho, -, -, hR, -, hn⟩ := Taf.change_decodes h hx hc
    exact derived hR.clouds hn

/-- A report whose second layer has no height, and one with a low ceiling. -/
example : (metarOk sampleClock py!"METAR SKBO 151200Z 9999 FEW010 BKN///").map
      (fun r => decide (ceiling r.core.clouds.list = .error .type)) = some true ∧
    (metarOk sampleClock py!"METAR SKBO 151200Z 9999 BKN040 OVC009").map
      (fun r => (decide (ceiling r.core.clouds.list = .ok true), r.core.flightRules)) =
      some (true, some py!"VFR") ∧
    (metarOk sampleClock py!"METAR SKBO 151200Z 9999 FEW050 BKN060").map
      (fun r => decide ((r.core.shouldBeCavok false).1 = .ok true)) = some true ∧
    (tafOk sampleClock py!"TAF SKBO 151130Z 1512/1612 9999 BKN004 TEMPO 1514/1516 3000 OVC020").map
      (fun r => (r.core.flightRules, r.changes.list.map fun x => x.core.flightRules)) =
      some (some py!"LIFR", [some py!"IFR"]) := by
  decide +kernel

end Verif.Props
