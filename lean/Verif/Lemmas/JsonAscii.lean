import Verif.Model.Json
import Verif.Lemmas.Json

/-
The characters that `json.dumps` writes.
-/

namespace Verif

theorem hexDigit_range {n : Nat} (h : n < 16) : 32 ≤ hexDigit n ∧ hexDigit n ≤ 126 := by
  unfold hexDigit; split <;> omega

theorem hex4_range (n : Nat) : ∀ c ∈ hex4 n, 32 ≤ c ∧ c ≤ 126 := by
  unfold hex4
  simp only [List.forall_mem_cons, List.not_mem_nil, false_imp_iff, implies_true, and_true]
  refine ⟨?_, ?_, ?_, ?_⟩ <;> exact hexDigit_range (by omega)

theorem jsonChar_range (c : Nat) : ∀ d ∈ jsonChar c, 32 ≤ d ∧ d ≤ 126 := by
  unfold jsonChar
  intro d hd
  by_cases h1 : c = 34
  · simp [h1] at hd; omega
  rw [if_neg h1] at hd
  by_cases h2 : c = 92
  · simp [h2] at hd; omega
  rw [if_neg h2] at hd
  by_cases h3 : 32 ≤ c ∧ c ≤ 126
  · simp [h3] at hd; omega
  rw [if_neg h3] at hd
  repeat' split at hd
  all_goals first
    | (simp at hd; omega)
    | skip
  · simp only [List.mem_cons] at hd
    rcases hd with hd | hd | hd
    · omega
    · omega
    · exact hex4_range _ d hd
  · simp only [List.mem_cons, List.mem_append] at hd
    rcases hd with (hd | hd | hd) | hd | hd | hd
    · omega
    · omega
    · exact hex4_range _ d hd
    · omega
    · omega
    · exact hex4_range _ d hd

def Printable (s : PyStr) : Prop := ∀ c ∈ s, 32 ≤ c ∧ c ≤ 126

theorem Printable.append {s t : PyStr} (hs : Printable s) (ht : Printable t) : Printable (s ++ t) := by
  intro c hc
  rcases List.mem_append.1 hc with h | h
  · exact hs c h
  · exact ht c h

theorem Printable.cons {a : Nat} {t : PyStr} (ha : 32 ≤ a ∧ a ≤ 126) (ht : Printable t) : Printable (a :: t) := by
  intro c hc
  rcases List.mem_cons.1 hc with h | h
  · exact h ▸ ha
  · exact ht c h

theorem Printable.sub {s t : PyStr} (hs : Printable s) (h : ∀ c ∈ t, c ∈ s) : Printable t :=
  fun c hc => hs c (h c hc)

theorem Printable.lit {s : PyStr} (h : s.all (fun c => 32 ≤ c && c ≤ 126) = true) : Printable s := by
  intro c hc
  have := List.all_eq_true.1 h c hc
  simpa using this

theorem printable_natStr (n : Nat) : Printable (natStr n) := by
  intro c hc
  have := ascii_range (natStr_ascii n) c hc
  omega

theorem printable_zeros (n : Nat) : Printable (List.replicate n 48) := by
  intro c hc
  have := List.eq_of_mem_replicate hc
  omega

theorem printable_str (s : PyStr) : Printable (jsonStr s) := by
  unfold jsonStr
  refine .cons (by omega) (.append ?_ (.lit rfl))
  intro c hc
  obtain ⟨d, -, h⟩ := List.mem_flatMap.1 hc
  exact jsonChar_range d c h

theorem printable_pointed {ds : PyStr} (hk : Printable ds) (pt : Int) : Printable (pointed ds pt) := by
  unfold pointed
  split
  · refine .append (.append (.append (.sub hk fun c h => List.mem_of_mem_take h) ?_) ?_) ?_
    · split
      · exact .lit rfl
      · exact .cons (by omega) (.sub hk fun c h => List.mem_of_mem_drop h)
    · split <;> exact .lit rfl
    · exact .append (printable_zeros _) (printable_natStr _)
  · split
    · exact .append (.append (.lit rfl) (printable_zeros _)) hk
    · split
      · exact .append (.append hk (printable_zeros _)) (.lit rfl)
      · exact .append (.append (.sub hk fun c h => List.mem_of_mem_take h) (.lit rfl))
          (.sub hk fun c h => List.mem_of_mem_drop h)

theorem printable_float (x : F64) : Printable (floatRepr x) := by
  unfold floatRepr
  refine .append (by split <;> exact .lit rfl) ?_
  split
  · exact .lit rfl
  · exact printable_pointed (printable_natStr _) _

mutual
theorem printable_val : (v : PyVal) → Printable (jsonVal v)
  | .none => Printable.lit rfl
  | .bool true => Printable.lit rfl
  | .bool false => Printable.lit rfl
  | .str s => printable_str s
  | .float x => printable_float x
  | .list l => Printable.cons (by omega) (printable_elems l)
  | .dict d => Printable.cons (by omega) (printable_members d)

theorem printable_elems : (l : List PyVal) → Printable (jsonElems l)
  | [] => Printable.lit rfl
  | v :: l => Printable.append (printable_val v) (printable_moreElems l)

theorem printable_moreElems : (l : List PyVal) → Printable (jsonMoreElems l)
  | [] => Printable.lit rfl
  | v :: l => Printable.append (.append (.lit rfl) (printable_val v)) (printable_moreElems l)

theorem printable_members : (d : List (PyStr × PyVal)) → Printable (jsonMembers d)
  | [] => Printable.lit rfl
  | (k, v) :: d =>
    Printable.append (.append (.append (printable_str k) (.lit rfl)) (printable_val v)) (printable_moreMembers d)

theorem printable_moreMembers : (d : List (PyStr × PyVal)) → Printable (jsonMoreMembers d)
  | [] => Printable.lit rfl
  | (k, v) :: d =>
    Printable.append (.append (.append (.append (.lit rfl) (printable_str k)) (.lit rfl)) (printable_val v))
      (printable_moreMembers d)
end

end Verif
