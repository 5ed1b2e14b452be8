import Verif.Spec.Dict
import Verif.Props.GroupList
import Verif.Lemmas.Report

/-
The dictionaries of the groups.
-/

namespace Verif
open Spec

theorem ofStr_some (s : PyStr) : PyVal.ofStr (some s) = .str s := rfl

theorem leaves_ofStr (n : Nat) (o : Option PyStr) : leaves n (.ofStr o) = [([], .ofStr o)] := by
  cases o <;> cases n <;> rfl
theorem leaves_ofFloat (n : Nat) (o : Option F64) : leaves n (.ofFloat o) = [([], .ofFloat o)] := by
  cases o <;> cases n <;> rfl
theorem leaves_bool (n : Nat) (b : Bool) : leaves n (.bool b) = [([], .bool b)] := by
  cases n <;> rfl
theorem leaves_str (n : Nat) (s : PyStr) : leaves n (.str s) = [([], .str s)] := by
  cases n <;> rfl
theorem leaves_dict (n : Nat) (x : PyStr × PyVal) (d : List (PyStr × PyVal)) :
    leaves (n + 1) (.dict (x :: d)) =
      (x :: d).flatMap fun kv => under (.name kv.1) (leaves n kv.2) := rfl

/-- Flattening the dictionary of a group. -/
macro "leaves_of" "[" ts:Lean.Parser.Tactic.simpLemma,* "]" : tactic => `(tactic|
  simp [dupdate, dset, groupDict, leaves_dict, leaves_ofStr, leaves_ofFloat, leaves_bool, leaves_str,
    text, number, flag, Spec.sub, under, ofStr_some, $ts,*])

theorem leaves_direction (n : Nat) (d : Direction) : leaves (n + 1) d.dict = directionTable d := by
  leaves_of [Direction.dict, directionTable]
theorem leaves_speed (n : Nat) (v : Option F64) : leaves (n + 1) (speedDict v) = speedTable v := by
  leaves_of [speedDict, speedTable]
theorem leaves_distance (n : Nat) (v : Option F64) :
    leaves (n + 1) (distanceDict v) = distanceTable v := by
  leaves_of [distanceDict, distanceTable]
theorem leaves_celsius (n : Nat) (v : Option F64) :
    leaves (n + 1) (.dict (temperatureDict v)) = celsiusTable v := by
  leaves_of [temperatureDict, celsiusTable]
theorem leaves_time (n : Nat) (t : Time) : leaves (n + 1) (.dict t.dict) = timeTable t := by
  leaves_of [Time.dict, timeTable]
theorem leaves_type (n : Nat) (t : ReportType) : leaves (n + 1) t.dict = typeTable t := by
  leaves_of [ReportType.dict, typeTable]
theorem leaves_station (n : Nat) (db : Database) (s : Station) :
    leaves (n + 1) (s.dict db) = stationTable db s := by
  leaves_of [Station.dict, stationTable]
theorem leaves_modifier (n : Nat) (m : Modifier) : leaves (n + 1) (.dict m.dict) = modifierTable m := by
  leaves_of [Modifier.dict, modifierTable]
theorem leaves_wind (n : Nat) (w : MetarWind) : leaves (n + 2) w.dict = windTable w := by
  leaves_of [MetarWind.dict, windTable, leaves_direction, leaves_speed]
theorem leaves_variation (n : Nat) (w : WindVariation) : leaves (n + 2) w.dict = variationTable w := by
  leaves_of [WindVariation.dict, variationTable, leaves_direction]
theorem leaves_minimum (n : Nat) (v : Visibility) :
    leaves (n + 2) (.dict v.dictMin) = minimumTable v := by
  leaves_of [Visibility.dictMin, minimumTable, leaves_direction, leaves_distance]
theorem leaves_prevailing (n : Nat) (v : Visibility) :
    leaves (n + 2) v.dictPrev = prevailingTable v := by
  leaves_of [Visibility.dictPrev, Visibility.dictMin, prevailingTable, minimumTable,
    leaves_direction, leaves_distance]
theorem leaves_range (n : Nat) (r : RunwayRange) : leaves (n + 2) r.dict = rangeTable r := by
  leaves_of [RunwayRange.dict, rangeTable, leaves_distance]
theorem leaves_weather (n : Nat) (w : Weather) : leaves (n + 1) w.dict = weatherTable w := by
  leaves_of [Weather.dict, weatherTable]
theorem leaves_cloud (n : Nat) (c : Cloud) : leaves (n + 1) c.dict = cloudTable c := by
  leaves_of [Cloud.dict, cloudTable]
theorem leaves_temperatures (n : Nat) (t : Temperatures) :
    leaves (n + 2) t.dict = temperaturesTable t := by
  leaves_of [Temperatures.dict, temperaturesTable, leaves_celsius]
theorem leaves_pressure (n : Nat) (p : MetarPressure) : leaves (n + 1) p.dict = pressureTable p := by
  leaves_of [MetarPressure.dict, pressureDict, pressureTable]
theorem leaves_recent (n : Nat) (w : RecentWeather) : leaves (n + 1) w.dict = recentTable w := by
  leaves_of [RecentWeather.dict, recentTable]
theorem leaves_windshear (n : Nat) (w : Windshear) : leaves (n + 1) w.dict = windshearTable w := by
  leaves_of [Windshear.dict, windshearTable]
theorem leaves_sea (n : Nat) (s : SeaState) : leaves (n + 2) s.dict = seaTable s := by
  leaves_of [SeaState.dict, seaTable, leaves_celsius, leaves_distance]
theorem leaves_runwayState (n : Nat) (r : RunwayState) :
    leaves (n + 1) r.dict = runwayStateTable r := by
  leaves_of [RunwayState.dict, runwayStateTable]
theorem leaves_valid (n : Nat) (v : Valid) : leaves (n + 2) v.dict = validTable v := by
  leaves_of [Valid.dict, validTable, leaves_time]
theorem leaves_missing (n : Nat) (x : Missing) : leaves (n + 1) x.dict = missingTable x := by
  leaves_of [Missing.dict, Modifier.dict, missingTable, modifierTable]
theorem leaves_cancelled (n : Nat) (x : Cancelled) : leaves (n + 1) x.dict = cancelledTable x := by
  leaves_of [Cancelled.dict, cancelledTable]
theorem leaves_tafTemperature (n : Nat) (t : TafTemperature) :
    leaves (n + 1) t.dict = tafTemperatureTable t := by
  leaves_of [TafTemperature.dict, temperatureDict, Time.dict, tafTemperatureTable, celsiusTable]

theorem leaves_strings (n : Nat) (l : List PyStr) :
    leaves (n + 1) (.list (l.map .str)) = strings l := by
  unfold strings
  cases l with
  | nil => rfl
  | cons x l =>
    rw [if_neg (by simp)]
    show ((x :: l).map PyVal.str).zipIdx.flatMap _ = _
    generalize x :: l = l
    generalize 0 = k
    induction l generalizing k with
    | nil => rfl
    | cons y l ih =>
      simp only [List.map_cons, List.zipIdx_cons, List.flatMap_cons, ih, leaves_str]
      rfl

theorem leaves_indexed {α : Type} (n : Nat) (dictOf : α → PyVal) (t : α → Table) (l : List α)
    (h : ∀ x ∈ l, leaves n (dictOf x) = t x) :
    leaves (n + 1) (.list (l.map dictOf)) = indexed t l := by
  unfold indexed
  cases l with
  | nil => rfl
  | cons x l =>
    rw [if_neg (by simp)]
    show ((x :: l).map dictOf).zipIdx.flatMap _ = _
    generalize x :: l = l at h
    generalize 0 = k
    induction l generalizing k with
    | nil => rfl
    | cons y l ih =>
      simp only [List.map_cons, List.zipIdx_cons, List.flatMap_cons, h y (by simp)]
      rw [ih (fun z hz => h z (by simp [hz]))]

theorem leaves_labelled {α : Type} (n : Nat) (dictOf : α → PyVal) (t : α → Table) (l : List α)
    (h : ∀ x ∈ l, leaves n (dictOf x) = t x) :
    leaves (n + 1) (.dict ((ordinals.take l.length).zip (l.map dictOf))) = labelled t l := by
  unfold labelled
  cases l with
  | nil => rfl
  | cons x l =>
    rw [if_neg (by simp)]
    have e : (ordinals.take (x :: l).length).zip ((x :: l).map dictOf) =
        (ordinals.zip (x :: l)).map fun y => (y.1, dictOf y.2) := by
      generalize x :: l = l
      generalize ordinals = o
      induction l generalizing o with
      | nil => simp
      | cons y l ih => cases o with
        | nil => simp
        | cons a o => simp [ih o]
    rw [e]
    have hz : ∃ y ys, ordinals.zip (x :: l) = y :: ys := ⟨_, _, rfl⟩
    have hm : ∀ y ∈ ordinals.zip (x :: l), y.2 ∈ x :: l := fun y hy => (List.of_mem_zip hy).2
    generalize ordinals.zip (x :: l) = z at hz hm
    obtain ⟨y, ys, rfl⟩ := hz
    rw [List.map_cons, leaves_dict, ← List.map_cons (f := fun y : PyStr × α => (y.1, dictOf y.2)),
      List.flatMap_map]
    generalize y :: ys = z at hm
    induction z with
    | nil => rfl
    | cons y z ih =>
      rw [List.flatMap_cons, List.flatMap_cons, ih (fun w hw => hm w (by simp [hw])),
        h y.2 (hm y (by simp))]

theorem leaves_forecast_now (n : Nat) (code : Option PyStr) (c : Core) :
    leaves (n + 3) (forecastDict code c).1 = forecastTableNow code c := by
  have e1 := leaves_indexed (n + 1) Weather.dict weatherTable (c.weathers.list.drop c.weathers.n)
    (fun x _ => leaves_weather n x)
  have e2 := leaves_indexed (n + 1) Cloud.dict cloudTable (c.clouds.list.drop c.clouds.n)
    (fun x _ => leaves_cloud n x)
  rw [List.map_drop] at e1 e2
  unfold forecastDict
  rw [Props.C40_iteration_from_cursor, Props.C40_iteration_from_cursor]
  leaves_of [forecastTableNow, forecastTableWith, leaves_wind, leaves_prevailing, e1, e2]

theorem leaves_forecast (n : Nat) (code : Option PyStr) (c : Core) (hw : c.weathers.n = 0)
    (hc : c.clouds.n = 0) : leaves (n + 3) (forecastDict code c).1 = forecastTable code c := by
  rw [leaves_forecast_now, forecastTableNow, hw, hc]
  rfl

theorem labelled_congr {α : Type} {t t' : α → Table} {l : List α} (h : ∀ x ∈ l, t x = t' x) :
    labelled t l = labelled t' l := by
  unfold labelled
  congr 1
  suffices ∀ os : List PyStr, (os.zip l).flatMap (fun x => under (.name x.1) (t x.2)) =
      (os.zip l).flatMap fun x => under (.name x.1) (t' x.2) from this _
  intro os
  induction l generalizing os with
  | nil => simp
  | cons x l ih =>
    cases os with
    | nil => simp
    | cons o os =>
      simp only [List.zip_cons_cons, List.flatMap_cons]
      rw [h x (by simp), ih (fun y hy => h y (by simp [hy]))]

/-- The dictionary of a list of groups that fits. -/
theorem GroupList.asDict_eq {α : Type} (g : GroupList α) (dictOf : α → PyVal)
    (h : g.list.length ≤ 10) : g.asDict (fun a => .ok (dictOf a)) =
      .ok (.dict ((ordinals.take g.list.length).zip (g.list.map dictOf))) :=
  (Props.C41_as_dict_labels g dictOf h).1

end Verif
