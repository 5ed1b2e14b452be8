import Verif.Lemmas.Bounds
import Verif.Props.Wind
import Verif.Props.Visibility
import Verif.Props.CloudReports
import Verif.Props.Temperatures
import Verif.Props.Runway
import Verif.Props.Periods
import Verif.Props.Report

/-
C75: the numbers of a report lie in fixed ranges, whatever text it was made from.
-/

namespace Verif.Props
open Verif Verif.Spec

/-- C75. The numbers of a METAR and of its trends. -/
theorem C75_metar (db : Database) (clock : Clock) (code : PyStr) (a : Args) (r : Metar)
    (h : Metar.new db clock code a = .ok r) : MetarBounds r := by
  obtain ⟨c, hc⟩ : ∃ c, Decodes (Metar.handlers db (clock 2) a) (metarGroups r.body) c :=
    ⟨_, (decodes_iff _ _ _).2 rfl⟩
  have wind := ((C16_reports db clock code a).1 r c h hc).holds
    (P := fun x => Between 0 360 x.direction.value ∧ Between 0 1942 x.speed ∧ Between 0 1942 x.gust)
    ⟨.none, .none, .none⟩ fun w hw y hy => wind_between hw hy
  obtain ⟨v1, v2⟩ := (C21_reports db clock code a).1 r c h hc
  have vis := v1.holds (P := fun x => Between 0 200017 x.vis ∧ Between 45 360 x.direction.value)
    ⟨.none, .none⟩ fun w hw y hy => ⟨vis_between hw hy, degrees_between w y hy⟩
  have min := v2.holds (P := fun x => Between 0 10000 x.vis ∧ Between 45 360 x.direction.value)
    ⟨.none, .none⟩ fun w hw y hy => ⟨minVis_between hw hy, degrees_between w y hy⟩
  have sea := (C36_report db clock code a r c h hc).holds
    (P := fun x => Between (-99) 99 x.temperature ∧ Between 0 100 x.height)
    ⟨.none, .none⟩ fun w hw y hy => sea_between hw hy
  have temp := (C33_report db clock code a r c h hc).holds
    (P := fun x => Between (-99) 99 x.temperature ∧ Between (-99) 99 x.dewpoint)
    ⟨.none, .none⟩ fun w hw y hy => by
      rw [hy.2.1, hy.2.2]
      exact ⟨temp_between hw.1, temp_between hw.2⟩
  refine ⟨⟨wind.1, wind.2.1, wind.2.2, vis.1, vis.2, ?_⟩, fun p hp => ?_, ?_, min.1, min.2, ?_, temp.1, temp.2, ?_,
    sea.1, sea.2⟩
  · exact ((C27_reports db clock code a).1 r c h hc).holds fun w hw y hy => cloud_between hw hy
  · obtain ⟨text, ht, -⟩ := (C08_metar_unparsed db clock code a r h).2 p hp
    obtain ⟨c, hc⟩ : ∃ c, Decodes ChangePeriod.handlers (bodyGroups text) c := ⟨_, (decodes_iff _ _ _).2 rfl⟩
    have wind := ((C16_reports db clock code a).2.1 r p text c h hp ht hc).holds
      (P := fun x => Between 0 360 x.direction.value ∧ Between 0 1942 x.speed ∧ Between 0 1942 x.gust)
      ⟨.none, .none, .none⟩ fun w hw y hy => wind_between hw hy
    have vis := ((C21_reports db clock code a).2.1 r p text c h hp ht hc).holds
      (P := fun x => Between 0 200017 x.vis ∧ Between 45 360 x.direction.value)
      ⟨.none, .none⟩ fun w hw y hy => ⟨vis_between hw hy, degrees_between w y hy⟩
    exact ⟨wind.1, wind.2.1, wind.2.2, vis.1, vis.2, ((C27_reports db clock code a).2.1 r p text c h hp ht hc).holds
      fun w hw y hy => cloud_between hw hy⟩
  · exact (C20_report db clock code a r h c hc).holds
      (P := fun x => Between 10 360 x.from_.value ∧ Between 10 360 x.to.value)
      ⟨.none, .none⟩ fun w hw y hy => variation_between hw hy
  · exact (C25_report db clock code a r c h hc).holds fun w hw y hy => range_between hw hy
  · exact (C34_report db clock code a r c h hc).holds (P := fun x => Between 0 338605 x.value) .none
      fun w hw y hy => press_between hw hy

/-- C75. The numbers of a TAF and of its changes. -/
theorem C75_taf (db : Database) (clock : Clock) (code : PyStr) (a : Args) (r : Taf)
    (h : Taf.new db clock code a = .ok r) : TafBounds r := by
  obtain ⟨c, hc⟩ : ∃ c, Decodes (Taf.handlers db (clock 1) a) (bodyGroups r.body) c :=
    ⟨_, (decodes_iff _ _ _).2 rfl⟩
  have wind := ((C16_reports db clock code a).2.2.1 r c h hc).holds
    (P := fun x => Between 0 360 x.direction.value ∧ Between 0 1942 x.speed ∧ Between 0 1942 x.gust)
    ⟨.none, .none, .none⟩ fun w hw y hy => wind_between hw.1 hy
  have vis : Between 0 200017 r.core.prevailing.vis ∧ Between 45 360 r.core.prevailing.direction.value := by
    obtain ⟨v1, -, v3⟩ := C21_taf db clock code a r h c hc
    by_cases he : ∃ g, (g, 8) ∈ c
    · obtain ⟨g, hg⟩ := he
      obtain ⟨w, rest, hw, -, hs⟩ := v1 g hg
      exact ⟨vis_between hw.1 hs, degrees_between w _ hs⟩
    · rw [v3 fun g hg => he ⟨g, hg⟩]
      exact ⟨.none, .none⟩
  obtain ⟨ts, hts, hx, hn⟩ := C47_report db clock code a r c h hc
  have temps : ∀ p ∈ ts, Between (-99) 99 p.2.value := by
    generalize taken c 16 19 = gs at hts
    clear hx hn
    induction hts with
    | nil => intro p hp; cases hp
    | cons h1 _ ih =>
      intro p hp
      rcases List.mem_cons.1 hp with rfl | hp
      · rw [h1.value]
        exact signed_between (two_digits h1.form.1)
      · exact ih p hp
  refine ⟨⟨wind.1, wind.2.1, wind.2.2, vis.1, vis.2, ?_⟩, fun x hx => ?_, ?_, ?_⟩
  · exact ((C27_reports db clock code a).2.2.1 r c h hc).holds fun w hw y hy => cloud_between hw hy
  · obtain ⟨c, hc⟩ : ∃ c, Decodes ChangeForecasted.handlers (changeGroups x.code) c := ⟨_, (decodes_iff _ _ _).2 rfl⟩
    have wind := ((C16_reports db clock code a).2.2.2 r x c h hx hc).holds
      (P := fun x => Between 0 360 x.direction.value ∧ Between 0 1942 x.speed ∧ Between 0 1942 x.gust)
      ⟨.none, .none, .none⟩ fun w hw y hy => wind_between hw.1 hy
    have vis := ((C21_reports db clock code a).2.2 r x c h hx hc).holds
      (P := fun x => Between 0 200017 x.vis ∧ Between 45 360 x.direction.value)
      ⟨.none, .none⟩ fun w hw y hy => ⟨vis_between hw hy, degrees_between w y hy⟩
    exact ⟨wind.1, wind.2.1, wind.2.2, vis.1, vis.2, ((C27_reports db clock code a).2.2.2 r x c h hx hc).holds
      fun w hw y hy => cloud_between hw hy⟩
  · rw [hx]
    intro x hm
    obtain ⟨p, hp, rfl⟩ := List.mem_map.1 hm
    exact temps p (List.mem_filter.1 hp).1
  · rw [hn]
    intro x hm
    obtain ⟨p, hp, rfl⟩ := List.mem_map.1 hm
    exact temps p (List.mem_filter.1 hp).1

/-- A report with the largest wind, visibility, clouds, pressure and waves that can be written, and the
lowest temperatures: the ranges cannot be much smaller. -/
example : (match Metar.new sampleDb sampleClock
      py!"METAR SKBO 151200Z 360999MPS 010V360 99 9/1SM R07/9999 OVC999 M99/99 9999 WM99/H999" {} with
    | .ok r => decide (r.core.wind.direction.value = some ⟨360, false⟩ ∧
        (∀ x, r.core.wind.speed = some x → 1941 < x.val ∧ x.val < 1942) ∧ r.core.wind.speed ≠ none ∧
        (∀ x ∈ r.core.clouds.list, ∀ y, x.height = some y → 30449 < y.val ∧ y.val < 30450) ∧
        r.core.clouds.list.length = 1) &&
      decide ((∀ x, r.core.prevailing.vis = some x → 200016 < x.val ∧ x.val < 200017) ∧ r.core.prevailing.vis ≠ none ∧
        r.runwayRanges.list.map (·.low) = [some ⟨10000, false⟩] ∧
        r.temperatures.temperature = some ⟨-99, false⟩ ∧ r.temperatures.dewpoint = some ⟨99, false⟩ ∧
        (∀ x, r.pressure.value = some x → 338604 < x.val ∧ x.val < 338605) ∧ r.pressure.value ≠ none ∧
        (∀ x, r.seaState.height = some x → 99 < x.val ∧ x.val < 100) ∧ r.seaState.height ≠ none)
    | .error _ => false) = true := by decide +kernel

example : (match Taf.new sampleDb sampleClock
      py!"TAF SKBO 150500Z 1506/1612 00000KT 9999 TX99/1512Z TNM99/1606Z BECMG 1512/1514 VRB99G999MPS" {} with
    | .ok r => decide (r.core.wind.speed = some ⟨0, false⟩ ∧
        r.maxTemperatures.list.map (·.value) = [some ⟨99, false⟩] ∧
        r.minTemperatures.list.map (·.value) = [some ⟨-99, false⟩] ∧
        (∀ x ∈ r.changes.list, ∀ y, x.core.wind.gust = some y → 1941 < y.val) ∧ r.changes.list.length = 1)
    | .error _ => false) = true := by decide +kernel

end Verif.Props
