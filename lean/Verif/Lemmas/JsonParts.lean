import Verif.Lemmas.JsonValues
import Verif.Lemmas.Dict
import Verif.Model.JsonParts
import Verif.Spec.JsonParts

/-
The JSON text of a part of a value.
-/

namespace Verif
open Spec

theorem infix_of_mid {a b w v : PyStr} (h : w <:+: v) : w <:+: a ++ v ++ b := by
  obtain ⟨p, q, rfl⟩ := h
  exact ⟨a ++ p, q ++ b, by simp⟩

theorem moreElems_mid {v : PyVal} {l : List PyVal} (h : v ∈ l) :
    ∃ a b, jsonMoreElems l = a ++ jsonVal v ++ b := by
  induction l with
  | nil => cases h
  | cons x l ih =>
    rw [jsonMoreElems]
    rcases List.mem_cons.1 h with rfl | h
    · exact ⟨py!", ", jsonMoreElems l, rfl⟩
    · obtain ⟨a, b, e⟩ := ih h
      exact ⟨py!", " ++ jsonVal x ++ a, b, by rw [e]; simp⟩

theorem elems_mid {v : PyVal} {l : List PyVal} (h : v ∈ l) :
    ∃ a b, jsonVal (.list l) = a ++ jsonVal v ++ b := by
  rw [jsonVal]
  cases l with
  | nil => cases h
  | cons x l =>
    rw [jsonElems]
    rcases List.mem_cons.1 h with rfl | h
    · exact ⟨[91], jsonMoreElems l, by simp⟩
    · obtain ⟨a, b, e⟩ := moreElems_mid h
      exact ⟨91 :: (jsonVal x ++ a), b, by rw [e]; simp⟩

theorem moreMembers_mid {k : PyStr} {v : PyVal} {d : List (PyStr × PyVal)} (h : (k, v) ∈ d) :
    ∃ a b, jsonMoreMembers d = a ++ (jsonStr k ++ py!": " ++ jsonVal v) ++ b := by
  induction d with
  | nil => cases h
  | cons x d ih =>
    obtain ⟨k', v'⟩ := x
    rw [jsonMoreMembers]
    rcases List.mem_cons.1 h with h | h
    · cases h
      exact ⟨py!", ", jsonMoreMembers d, by simp⟩
    · obtain ⟨a, b, e⟩ := ih h
      exact ⟨py!", " ++ jsonStr k' ++ py!": " ++ jsonVal v' ++ a, b, by rw [e]; simp⟩

theorem members_mid {k : PyStr} {v : PyVal} {d : List (PyStr × PyVal)} (h : (k, v) ∈ d) :
    ∃ a b, jsonVal (.dict d) = a ++ (jsonStr k ++ py!": " ++ jsonVal v) ++ b := by
  rw [jsonVal]
  cases d with
  | nil => cases h
  | cons x d =>
    obtain ⟨k', v'⟩ := x
    rw [jsonMembers]
    rcases List.mem_cons.1 h with h | h
    · cases h
      exact ⟨[123], jsonMoreMembers d, by simp⟩
    · obtain ⟨a, b, e⟩ := moreMembers_mid h
      exact ⟨123 :: (jsonStr k' ++ py!": " ++ jsonVal v' ++ a), b, by rw [e]; simp⟩

theorem inside_infix {w v : PyVal} (h : Inside w v) : jsonVal w <:+: jsonVal v := by
  induction h with
  | here => exact List.infix_refl _
  | dict hk _ ih =>
    obtain ⟨a, b, e⟩ := members_mid hk
    rw [e, ← List.append_assoc, List.append_assoc (a ++ _)]
    exact List.append_assoc .. ▸ infix_of_mid ih
  | list hv _ ih =>
    obtain ⟨a, b, e⟩ := elems_mid hv
    rw [e]
    exact infix_of_mid ih

theorem inside_plain {w v : PyVal} (h : Inside w v) (hv : PlainVal v) : PlainVal w := by
  induction h with
  | here => exact hv
  | dict hk _ ih =>
    cases hv with
    | dict h1 h2 => exact ih (h2 _ hk)
  | list hm _ ih =>
    cases hv with
    | list h1 => exact ih (h1 _ hm)

theorem entry_mem {d : List (PyStr × PyVal)} {k : PyStr} {v : PyVal} (h : entry (.dict d) k = some v) : (k, v) ∈ d := by
  simp only [entry, Option.map_eq_some_iff] at h
  obtain ⟨x, hx, rfl⟩ := h
  have h1 := List.find?_some hx
  have h2 := List.mem_of_find?_eq_some hx
  simp only [decide_eq_true_eq] at h1
  rw [← h1]
  exact h2

theorem inside_entry {d v : PyVal} (k : PyStr) (h : entry d k = some v) : Inside v d := by
  cases d with
  | dict d => exact .dict (entry_mem h) .here
  | none => cases h
  | bool b => cases h
  | str s => cases h
  | float x => cases h
  | list l => cases h

theorem Spec.Inside.trans {u v w : PyVal} (h : Inside u v) (h' : Inside v w) : Inside u w := by
  induction h' with
  | here => exact h
  | dict hk _ ih => exact .dict hk ih
  | list hm _ ih => exact .list hm ih

theorem dset_new {d : List (PyStr × PyVal)} {k : PyStr} {v : PyVal} (h : k ∉ d.map (·.1)) :
    dset d k v = d ++ [(k, v)] := by
  induction d with
  | nil => rfl
  | cons x d ih =>
    obtain ⟨k', v'⟩ := x
    simp only [List.map_cons, List.mem_cons, not_or] at h
    rw [dset, if_neg fun e => h.1 e.symm, ih h.2]
    rfl

/-- Updating with other keys appends. -/
theorem dupdate_new {d e : List (PyStr × PyVal)} (h : (d.map (·.1) ++ e.map (·.1)).Nodup) : dupdate d e = d ++ e := by
  unfold dupdate
  induction e generalizing d with
  | nil => simp
  | cons x e ih =>
    obtain ⟨k, v⟩ := x
    simp only [List.foldl_cons]
    have hk : k ∉ d.map (·.1) := by
      intro hm
      rw [List.map_cons, List.nodup_append] at h
      exact h.2.2 k hm k (by simp) rfl
    rw [dset_new hk, ih]
    · simp
    · simpa using h

theorem entry_of_mem {d : List (PyStr × PyVal)} (hd : (d.map (·.1)).Nodup) {e : PyStr × PyVal} (h : e ∈ d) :
    entry (.dict d) e.1 = some e.2 := by
  induction d with
  | nil => cases h
  | cons x d ih =>
    simp only [List.map_cons, List.nodup_cons] at hd
    rcases List.mem_cons.1 h with rfl | h
    · simp [entry]
    · have hne : x.1 ≠ e.1 := fun he => hd.1 (List.mem_map.2 ⟨e, h, he.symm⟩)
      have := ih hd.2 h
      simp only [entry] at this ⊢
      rw [List.find?_cons_of_neg (by simpa using hne)]
      exact this

/-- A member of a list of groups lies in the dictionary of the list. -/
theorem inside_labelled {α : Type} {f : α → PyVal} {l : List α} (h : l.length ≤ 10) {x : α} (hx : x ∈ l) :
    Inside (f x) (.dict ((ordinals.take l.length).zip (l.map f))) := by
  obtain ⟨i, hi, rfl⟩ := List.mem_iff_getElem.1 hx
  have ho : ordinals.length = 10 := rfl
  refine .dict (k := (ordinals.take l.length)[i]'(by simp; omega)) ?_ .here
  rw [List.mem_iff_getElem]
  exact ⟨i, by simp; omega, by simp⟩

end Verif
