import Verif.Lemmas.Quantities
import Verif.Props.Wind
import Verif.Props.Visibility
import Verif.Props.CloudReports
import Verif.Props.Temperatures
import Verif.Props.Runway
import Verif.Props.Periods
import Verif.Props.Time

/-
C84: the quantities of a report in every unit, from the text of the groups.
-/

namespace Verif.Props
open Verif Spec

section generic
variable {γ α : Type} {G : Grammar γ α} {P : γ → α → Prop}

theorem reads_also {re : RE} {f : Match → Except Exc α} (h : Reads G re f)
    (hs : ∀ w x, G.WF w → G.Says w x → P w x) : Reads (G.also P) re f := by
  refine ⟨fun w hw => ?_, h.2⟩
  obtain ⟨m, x, h1, h2, h3⟩ := h.1 w hw
  exact ⟨m, x, h1, h2, h3, hs w x hw h3⟩

theorem readAt_also {c : List (PyStr × Nat)} {i : Nat} {d x : α} (h : ReadAt c i G d x)
    (hs : ∀ w x, G.WF w → G.Says w x → P w x) : ReadAt c i (G.also P) d x :=
  ⟨h.form, fun w hw hg => ⟨h.value w hw hg, hs w x hw (h.value w hw hg)⟩, h.absent⟩

theorem saysText_also {g : PyStr} {x : α} (h : SaysText G g x)
    (hs : ∀ w x, G.WF w → G.Says w x → P w x) : SaysText (G.also P) g x :=
  ⟨h.1, fun w hw hg => ⟨h.2 w hw hg, hs w x hw (h.2 w hw hg)⟩⟩

theorem readAll_also {c : List (PyStr × Nat)} {lo hi : Nat} {xs : List α} (h : ReadAll c lo hi G xs)
    (hs : ∀ w x, G.WF w → G.Says w x → P w x) : ReadAll c lo hi (G.also P) xs := by
  unfold ReadAll at h ⊢
  generalize taken c lo hi = gs at h
  induction h with
  | nil => exact .nil
  | cons h1 _ ih => exact .cons (saysText_also h1 hs) ih

theorem readLast_also {c : List (PyStr × Nat)} {lo hi : Nat} {d x : α} (h : ReadLast c lo hi G d x)
    (hs : ∀ w x, G.WF w → G.Says w x → P w x) : ReadLast c lo hi (G.also P) d x :=
  ⟨fun g hg => saysText_also (h.1 g hg) hs, h.2⟩

end generic

def windInUnits := windGrammar.also WindUnits
def tafWindInUnits := tafWindGrammar.also WindUnits
def variationInUnits := variationGrammar.also VariationUnits
def visInUnits := visGrammar.also VisUnits
def minVisInUnits := minVisGrammar.also VisUnits
def rangeInUnits := rangeGrammar.also RangeUnits
def cloudInUnits := cloudGrammar.also CloudUnits
def tempInUnits := tempGrammar.also TemperaturesUnits
def pressInUnits := pressGrammar.also fun g x => g.Sensible → PressUnits g x
def seaInUnits := seaGrammar.also SeaUnits

/-- C84. Every group of these kinds is accepted, and gives its quantities in every unit; nothing else
is accepted. -/
theorem C84_groups :
    Reads windInUnits MetarRegExp.WIND MetarWind.new ∧
    Reads tafWindInUnits TafRegExp.WIND MetarWind.new ∧
    Reads variationInUnits MetarRegExp.WIND_VARIATION WindVariation.new ∧
    Reads rangeInUnits MetarRegExp.RUNWAY_RANGE RunwayRange.new ∧
    Reads tempInUnits MetarRegExp.TEMPERATURES Temperatures.new ∧
    Reads pressInUnits MetarRegExp.PRESSURE MetarPressure.new ∧
    Reads cloudInUnits MetarRegExp.CLOUD Cloud.fromMetar ∧
    Reads seaInUnits MetarRegExp.SEA_STATE SeaState.new :=
  ⟨reads_also metarWind_reads fun _ _ hw h => wind_units hw h,
   reads_also tafWind_reads fun _ _ hw h => wind_units hw.1 h,
   reads_also variation_reads fun _ _ hw h => variation_units hw h,
   reads_also range_reads fun _ _ _ h => range_units h,
   reads_also temp_reads fun _ _ hw h => temperatures_units hw h,
   reads_also press_reads fun _ _ hw h hs => press_units hw hs h,
   reads_also cloud_reads fun _ _ _ h => cloud_units h,
   reads_also sea_reads fun _ _ hw h => sea_units hw h⟩

/-- C84. The quantities of a METAR in every unit in which the library gives them, from the text of
the groups decoded: wind, wind variation, visibilities, runway visual ranges, clouds, temperatures,
pressure, sea. -/
theorem C84_metar (db : Database) (clock : Clock) (code : PyStr) (a : Args) (r : Metar)
    (c : List (PyStr × Nat)) (h : Metar.new db clock code a = .ok r)
    (hc : Decodes (Metar.handlers db (clock 2) a) (metarGroups r.body) c) :
    ReadAt c 4 windInUnits MetarWind.none r.core.wind ∧
    ReadAt c 5 variationInUnits WindVariation.none r.windVariation ∧
    ReadAt c 6 visInUnits Visibility.none r.core.prevailing ∧
    ReadAt c 7 minVisInUnits Visibility.none r.minimumVisibility ∧
    ReadAll c 8 10 rangeInUnits r.runwayRanges.list ∧
    ReadAll c 14 17 cloudInUnits r.core.clouds.list ∧
    ReadAt c 18 tempInUnits ⟨none, none, none⟩ r.temperatures ∧
    ReadLast c 19 20 pressInUnits ⟨none, none⟩ r.pressure ∧
    ReadAt c 25 seaInUnits ⟨none, none, none, none⟩ r.seaState :=
  ⟨readAt_also ((C16_reports db clock code a).1 r c h hc) fun _ _ hw h => wind_units hw h,
   readAt_also (C20_report db clock code a r h c hc) fun _ _ hw h => variation_units hw h,
   readAt_also ((C21_reports db clock code a).1 r c h hc).1 fun _ _ _ h => vis_units h,
   readAt_also ((C21_reports db clock code a).1 r c h hc).2 fun _ _ _ h => vis_units h,
   readAll_also (C25_report db clock code a r c h hc) fun _ _ _ h => range_units h,
   readAll_also ((C27_reports db clock code a).1 r c h hc) fun _ _ _ h => cloud_units h,
   readAt_also (C33_report db clock code a r c h hc) fun _ _ hw h => temperatures_units hw h,
   readLast_also (C34_report db clock code a r c h hc) fun _ _ hw h hs => press_units hw hs h,
   readAt_also (C36_report db clock code a r c h hc) fun _ _ hw h => sea_units hw h⟩

/-- C84. The same of a trend of a METAR. -/
theorem C84_trend (db : Database) (clock : Clock) (code : PyStr) (a : Args) (r : Metar)
    (p : ChangePeriod) (text : PyStr) (c : List (PyStr × Nat)) (h : Metar.new db clock code a = .ok r)
    (hp : p ∈ r.weatherTrends.list) (ht : p.code = some text)
    (hc : Decodes ChangePeriod.handlers (bodyGroups text) c) :
    ReadAt c 3 windInUnits MetarWind.none p.core.wind ∧
    ReadAt c 4 visInUnits Visibility.none p.core.prevailing ∧
    ReadAll c 8 11 cloudInUnits p.core.clouds.list :=
  ⟨readAt_also ((C16_reports db clock code a).2.1 r p text c h hp ht hc) fun _ _ hw h => wind_units hw h,
   readAt_also ((C21_reports db clock code a).2.1 r p text c h hp ht hc) fun _ _ _ h => vis_units h,
   readAll_also ((C27_reports db clock code a).2.1 r p text c h hp ht hc) fun _ _ _ h => cloud_units h⟩

/-- C84. The same of a TAF, whose visibility is the one its group begins with, and whose maximum and
minimum temperatures are those of the `TX` and `TN` groups. -/
theorem C84_taf (db : Database) (clock : Clock) (code : PyStr) (a : Args) (r : Taf)
    (c : List (PyStr × Nat)) (h : Taf.new db clock code a = .ok r)
    (hc : Decodes (Taf.handlers db (clock 1) a) (bodyGroups r.body) c) :
    ReadAt c 7 tafWindInUnits MetarWind.none r.core.wind ∧
    (∀ g, (g, 8) ∈ c → ∃ (w : VisGroup) (rest : PyStr), tafVisGrammar.WF w ∧ g = w.text ++ rest ∧
      VisUnits w r.core.prevailing) ∧
    ReadAll c 12 15 cloudInUnits r.core.clouds.list ∧
    ∃ ts : List (TafTempGroup × TafTemperature),
      Each (fun g p => (∃ rest, g = p.1.text ++ rest) ∧ p.1.WF ∧ TafTempUnits p.1 p.2)
        (taken c 16 19) ts ∧
      r.maxTemperatures.list = (ts.filter (·.1.max)).map (·.2) ∧
      r.minTemperatures.list = (ts.filter (!·.1.max)).map (·.2) := by
  refine ⟨readAt_also ((C16_reports db clock code a).2.2.1 r c h hc) fun _ _ hw h => wind_units hw.1 h,
    fun g hg => ?_,
    readAll_also ((C27_reports db clock code a).2.2.1 r c h hc) fun _ _ _ h => cloud_units h, ?_⟩
  · obtain ⟨w, rest, hw, e, hs⟩ := (C21_taf db clock code a r h c hc).1 g hg
    exact ⟨w, rest, hw, e, vis_units hs⟩
  · obtain ⟨ts, h1, h2, h3⟩ := C47_report db clock code a r c h hc
    refine ⟨ts, ?_, h2, h3⟩
    clear h2 h3
    generalize taken c 16 19 = gs at h1
    induction h1 with
    | nil => exact .nil
    | cons hy _ ih => exact .cons ⟨hy.text, hy.form, tafTemp_units hy.form hy.value⟩ ih

/-- C84. The same of a change of a TAF. -/
theorem C84_change (db : Database) (clock : Clock) (code : PyStr) (a : Args) (r : Taf)
    (x : ChangeForecasted) (c : List (PyStr × Nat)) (h : Taf.new db clock code a = .ok r)
    (hx : x ∈ r.changes.list) (hc : Decodes ChangeForecasted.handlers (changeGroups x.code) c) :
    ReadAt c 2 tafWindInUnits MetarWind.none x.core.wind ∧
    ReadAt c 3 visInUnits Visibility.none x.core.prevailing ∧
    ReadAll c 7 10 cloudInUnits x.core.clouds.list :=
  ⟨readAt_also ((C16_reports db clock code a).2.2.2 r x c h hx hc) fun _ _ hw h => wind_units hw.1 h,
   readAt_also ((C21_reports db clock code a).2.2 r x c h hx hc) fun _ _ _ h => vis_units h,
   readAll_also ((C27_reports db clock code a).2.2.2 r x c h hx hc) fun _ _ _ h => cloud_units h⟩

/-- The constants by which the library converts its quantities. -/
def factors : List F64 :=
  [Conv.M_TO_KM, Conv.M_TO_SMI, Conv.M_TO_FT, Conv.M_TO_DM, Conv.M_TO_CM, Conv.M_TO_IN,
   Conv.HPA_TO_INHG, Conv.HPA_TO_MBAR, Conv.HPA_TO_BAR, Conv.HPA_TO_ATM, Conv.KNOT_TO_MPS,
   Conv.KNOT_TO_KPH, Conv.KNOT_TO_MIPH, Conv.DEGREES_TO_RADIANS, Conv.DEGREES_TO_GRADIANS,
   F64.ofNat 1]

/-- C84. `converted` in full: nothing for a missing value; a factor other than zero multiplies,
whatever the conversion; otherwise the conversion, if any, is applied. None of the constants of the
library is zero, so all its conversions by a factor multiply. -/
theorem C84_converted :
    (∀ f g, numericConverted none f g = none) ∧
    (∀ (x f : F64) g, f.val ≠ 0 → numericConverted (some x) (some f) g = some (x.mul f)) ∧
    (∀ (x : F64) f g, (∀ y : F64, f = some y → y.val = 0) →
      numericConverted (some x) f g = g.map fun g => g x) ∧
    (∀ v, ∀ f ∈ factors, numericConverted v (some f) none = converted v f) ∧
    (∀ v g, numericConverted v none (some g) = convertedBy v g) := by
  have ht : ∀ y : F64, truthyO (some y) = true ↔ y.val ≠ 0 := by
    intro y
    simp [truthyO, F64.truthy]
  refine ⟨fun f g => rfl, fun x f g h => ?_, fun x f g h => ?_, fun v f hf => ?_, fun v g => ?_⟩
  · unfold numericConverted
    dsimp only
    rw [if_pos ((ht f).2 h)]
    rfl
  · unfold numericConverted
    dsimp only
    rw [if_neg]
    cases f with
    | none => simp [truthyO]
    | some y => rw [ht]; exact fun k => k (h y rfl)
  · have hz : ∀ f ∈ factors, f.val ≠ 0 := by decide +kernel
    cases v with
    | none => rfl
    | some x =>
      unfold numericConverted
      dsimp only
      rw [if_pos ((ht f).2 (hz f hf))]
      rfl
  · cases v <;> rfl

/-- A report with quantities in units other than those kept by the library. -/
example : (metarOk sampleClock
      py!"METAR UUEE 071200Z 23005G12MPS 1 1/2SM R07R/0600V2000FT BKN010 M05/M07 A2992 W19/H015").map
    (fun r => [r.core.wind.speedInMps, r.core.wind.gustInKph, r.core.prevailing.inSeaMiles,
      r.runwayRanges.list.head?.bind RunwayRange.highInFeet, r.core.clouds.list.head?.bind Cloud.heightInFeet,
      r.temperatures.temperatureInFahrenheit, r.temperatures.dewpointInKelvin, r.pressure.inInHg,
      r.seaState.inCentimeters].map (·.map fun x => decide
        (Within (1 / 10 ^ 6) x.val 5 ∨ Within (1 / 10 ^ 6) x.val 43.2 ∨ Within (1 / 10 ^ 6) x.val 1.5 ∨
         Within (1 / 10 ^ 6) x.val 2000 ∨ Within (1 / 10 ^ 6) x.val 1000 ∨ Within (1 / 10 ^ 6) x.val 23 ∨
         Within (1 / 10 ^ 6) x.val 266.15 ∨ Within (1 / 10 ^ 6) x.val 29.92 ∨
         Within (1 / 10 ^ 6) x.val 150))) = some (List.replicate 9 (some true)) := by decide +kernel

end Verif.Props
