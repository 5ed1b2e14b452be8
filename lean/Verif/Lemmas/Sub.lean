import Verif.Lemmas.Regex

/-
`re.sub` and `re.search`.
-/

namespace Verif

theorem RE.subGo_nil (r : RE) (repl : PyStr) (n : Option Nat) (k : Nat) :
    r.subGo repl n k [] = [] := by
  unfold RE.subGo; rfl

theorem RE.subGo_skip (r : RE) (repl : PyStr) (n : Option Nat) (k : Nat) (s : PyStr) :
    r.subGo repl n k s = r.subGo repl n 0 (s.drop k) := by
  induction k generalizing s with
  | zero => simp
  | succ k ih =>
    cases s with
    | nil => simp [RE.subGo_nil]
    | cons c t =>
      rw [List.drop_succ_cons, ← ih]
      conv => lhs; unfold RE.subGo

theorem RE.subGo_zero (r : RE) (repl : PyStr) (s : PyStr) : r.subGo repl (some 0) 0 s = s := by
  cases s with
  | nil => exact RE.subGo_nil ..
  | cons c t => rw [RE.subGo]; simp

/-- The text does not match at the current position. -/
theorem RE.subGo_none {r : RE} {repl : PyStr} {n : Option Nat} {c : Nat} {t : PyStr}
    (h : r.match (c :: t) = none) : r.subGo repl n 0 (c :: t) = c :: r.subGo repl n 0 t := by
  cases n with
  | none => rw [RE.subGo] <;> simp [h]
  | some n =>
    cases n with
    | zero => rw [RE.subGo_zero, RE.subGo_zero]
    | succ n => rw [RE.subGo] <;> simp [h]

/-- The text matches at the current position. -/
theorem RE.subGo_some {r : RE} {repl : PyStr} {n : Option Nat} {s : PyStr} {m : Match}
    (h : r.match s = some m) (hs : m.stop ≠ 0) (hn : n ≠ some 0) (hne : s ≠ []) :
    r.subGo repl n 0 s = repl ++ r.subGo repl (n.map (· - 1)) 0 (s.drop m.stop) := by
  obtain ⟨c, t, rfl⟩ : ∃ c t, s = c :: t := by
    cases s with
    | nil => exact absurd rfl hne
    | cons c t => exact ⟨c, t, rfl⟩
  obtain ⟨k, hk⟩ : ∃ k, m.stop = k + 1 := ⟨m.stop - 1, by omega⟩
  cases n with
  | none =>
    rw [RE.subGo]
    · simp only [h, hk, Nat.add_sub_cancel]
      rw [if_neg (by omega), RE.subGo_skip]
      rfl
    · simp
  | some n =>
    cases n with
    | zero => exact absurd rfl hn
    | succ n =>
      rw [RE.subGo]
      · simp only [h, hk, Nat.add_sub_cancel]
        rw [if_neg (by omega), RE.subGo_skip]
        rfl
      · simp

/-- Nothing to replace. -/
theorem RE.subGo_absent {r : RE} {repl : PyStr} {n : Option Nat} (s : PyStr)
    (h : ∀ i, i < s.length → r.match (s.drop i) = none) : r.subGo repl n 0 s = s := by
  induction s with
  | nil => exact RE.subGo_nil ..
  | cons c t ih =>
    rw [RE.subGo_none (by simpa using h 0 (by simp)), ih]
    intro i hi
    simpa using h (i + 1) (by simp; omega)

/-- The length of a run. -/
theorem runLen_eq (s : PyStr) (cc : CC) (f p : Nat) :
    runLen s cc f p = min f ((s.drop p).takeWhile cc.mem).length := by
  induction f generalizing p with
  | zero => simp [runLen]
  | succ f ih =>
    rw [runLen]
    by_cases hp : p < s.length
    · rw [List.getElem?_eq_getElem hp]
      rw [List.drop_eq_getElem_cons hp, List.takeWhile_cons]
      simp only
      by_cases hm : cc.mem s[p]
      · simp only [hm, if_true, List.length_cons]
        rw [ih]; omega
      · simp [hm]
    · rw [List.getElem?_eq_none (by omega), List.drop_eq_nil_of_le (by omega)]
      simp

end Verif
