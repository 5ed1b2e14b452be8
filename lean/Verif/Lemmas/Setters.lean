import Verif.Spec.Setters
import Verif.Lemmas.JsonParts

/-
Lemmas about assignments to `cavok`.
-/

namespace Verif

open Verif.Spec

theorem lastBool_cons (a : BoolArg) (as : List BoolArg) :
    lastBool (a :: as) = (lastBool as).or (match a with | .bool b => some b | .other => none) := by
  unfold lastBool
  cases a with
  | other => simp
  | bool b =>
    simp only [List.filterMap_cons, List.getLast?_cons]
    cases (List.filterMap _ as).getLast? <;> rfl

theorem lastBool_concat (as : List BoolArg) (b : Bool) : lastBool (as ++ [.bool b]) = some b := by
  unfold lastBool
  rw [List.filterMap_append]
  exact List.getLast?_concat

theorem Metar.setsCavok_eq (r : Metar) (as : List BoolArg) :
    r.setsCavok as = { r with core := { r.core with prevailing := { r.core.prevailing with
      cavok := (lastBool as).getD r.core.prevailing.cavok } } } := by
  unfold Metar.setsCavok
  induction as generalizing r with
  | nil => rfl
  | cons a as ih =>
    rw [List.foldl_cons, ih, lastBool_cons]
    cases a with
    | other => cases lastBool as <;> rfl
    | bool b => cases lastBool as <;> rfl

theorem Taf.setsCavok_eq (r : Taf) (as : List BoolArg) :
    r.setsCavok as = { r with core := { r.core with prevailing := { r.core.prevailing with
      cavok := (lastBool as).getD r.core.prevailing.cavok } } } := by
  unfold Taf.setsCavok
  induction as generalizing r with
  | nil => rfl
  | cons a as ih =>
    rw [List.foldl_cons, ih, lastBool_cons]
    cases a with
    | other => cases lastBool as <;> rfl
    | bool b => cases lastBool as <;> rfl

theorem Visibility.dictPrev_set (v : Visibility) (b : Bool) :
    ({ v with cavok := b } : Visibility).dictPrev = putAt (.bool b) [py!"cavok"] v.dictPrev := by
  rfl

/-- Replacing at a path below the key of one entry of an updated dictionary. -/
theorem putAt_dupdate {d e₁ e₂ : List (PyStr × PyVal)} {k : PyStr} {v x : PyVal} {ks : List PyStr}
    (h : (d.map (·.1) ++ (e₁.map (·.1) ++ k :: e₂.map (·.1))).Nodup) :
    PyVal.dict (dupdate d (e₁ ++ (k, putAt x ks v) :: e₂)) =
      putAt x (k :: ks) (.dict (dupdate d (e₁ ++ (k, v) :: e₂))) := by
  have off : ∀ l : List (PyStr × PyVal), k ∉ l.map (·.1) →
      l.map (fun e => if e.1 = k then (e.1, putAt x ks e.2) else e) = l := by
    intro l hl
    conv => rhs; rw [← List.map_id l]
    refine List.map_congr_left fun e he => ?_
    exact if_neg fun hk : e.1 = k => hl (hk ▸ List.mem_map_of_mem he)
  rw [dupdate_new (by simpa using h), dupdate_new (by simpa using h)]
  rw [List.nodup_append, List.nodup_append] at h
  obtain ⟨-, ⟨-, h2, h3⟩, h4⟩ := h
  rw [List.nodup_cons] at h2
  conv => rhs; unfold putAt
  rw [List.map_append, List.map_append, List.map_cons, off d, off e₁, off e₂ h2.1]
  · simp
  · exact fun hk => h3 k hk k (by simp) rfl
  · exact fun hk => h4 k hk k (by simp) rfl

theorem Metar.dict_set (db : Database) (r : Metar) (b : Bool) :
    ({ r with core := { r.core with prevailing := { r.core.prevailing with cavok := b } } } : Metar).dict db =
      (r.dict db).map (putAt (.bool b) cavokPath) := by
  unfold Metar.dict
  simp only [Visibility.dictPrev_set]
  cases r.runwayRanges.asDict fun x => Except.ok x.dict with
  | error => rfl
  | ok rr =>
  cases r.core.weathers.asDict fun x => Except.ok x.dict with
  | error => rfl
  | ok ws =>
  cases r.core.clouds.asDict fun x => Except.ok x.dict with
  | error => rfl
  | ok cs =>
  cases r.windshears.asDict fun x => Except.ok x.dict with
  | error => rfl
  | ok wsh =>
  cases r.weatherTrends.asDict fun x => Except.ok x.dict.1 with
  | error => rfl
  | ok wt =>
  exact congrArg Except.ok (putAt_dupdate (e₁ := [_, _, _])
    (by simp only [List.map_cons, List.map_nil]; decide +kernel))

theorem Taf.dict_set (db : Database) (r : Taf) (b : Bool) :
    ({ r with core := { r.core with prevailing := { r.core.prevailing with cavok := b } } } : Taf).dict db =
      (r.dict db).map (putAt (.bool b) cavokPath) := by
  unfold Taf.dict
  simp only [Visibility.dictPrev_set]
  cases r.core.weathers.asDict fun x => Except.ok x.dict with
  | error => rfl
  | ok ws =>
  cases r.core.clouds.asDict fun x => Except.ok x.dict with
  | error => rfl
  | ok cs =>
  cases r.maxTemperatures.asDict fun x => Except.ok x.dict with
  | error => rfl
  | ok mx =>
  cases r.minTemperatures.asDict fun x => Except.ok x.dict with
  | error => rfl
  | ok mn =>
  cases r.changes.asDict fun x => Except.ok x.dict.1 with
  | error => rfl
  | ok ch =>
  exact congrArg Except.ok (putAt_dupdate (e₁ := [_, _, _, _, _])
    (by simp only [List.map_cons, List.map_nil]; decide +kernel))

theorem Metar.dict_cavok {db : Database} {r : Metar} {d : PyVal} (h : r.dict db = .ok d) :
    getAt cavokPath d = some (.bool r.core.prevailing.cavok) := by
  unfold Metar.dict at h
  cases h1 : r.runwayRanges.asDict fun x => Except.ok x.dict <;> rw [h1] at h
  · cases h
  cases h2 : r.core.weathers.asDict fun x => Except.ok x.dict <;> rw [h2] at h
  · cases h
  cases h3 : r.core.clouds.asDict fun x => Except.ok x.dict <;> rw [h3] at h
  · cases h
  cases h4 : r.windshears.asDict fun x => Except.ok x.dict <;> rw [h4] at h
  · cases h
  cases h5 : r.weatherTrends.asDict fun x => Except.ok x.dict.1 <;> rw [h5] at h
  · cases h
  cases h
  rw [dupdate_new (by simp only [List.map_cons, List.map_nil]; decide +kernel)]
  rfl

theorem Taf.dict_cavok {db : Database} {r : Taf} {d : PyVal} (h : r.dict db = .ok d) :
    getAt cavokPath d = some (.bool r.core.prevailing.cavok) := by
  unfold Taf.dict at h
  cases h2 : r.core.weathers.asDict fun x => Except.ok x.dict <;> rw [h2] at h
  · cases h
  cases h3 : r.core.clouds.asDict fun x => Except.ok x.dict <;> rw [h3] at h
  · cases h
  cases h1 : r.maxTemperatures.asDict fun x => Except.ok x.dict <;> rw [h1] at h
  · cases h
  cases h4 : r.minTemperatures.asDict fun x => Except.ok x.dict <;> rw [h4] at h
  · cases h
  cases h5 : r.changes.asDict fun x => Except.ok x.dict.1 <;> rw [h5] at h
  · cases h
  cases h
  rw [dupdate_new (by simp only [List.map_cons, List.map_nil]; decide +kernel)]
  rfl

end Verif
