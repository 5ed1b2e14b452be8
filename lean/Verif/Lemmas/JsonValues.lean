import Verif.Lemmas.Json

/-
Reading the values that `json.dumps` wrote.
-/

namespace Verif
open Spec

/-! ### The first character -/

theorem pointed_head {ds : PyStr} (hne : ds ≠ []) (hd : ∀ c ∈ ds, 48 ≤ c ∧ c ≤ 57) (pt : Int) :
    ∃ c u, pointed ds pt = c :: u ∧ 48 ≤ c ∧ c ≤ 57 := by
  obtain ⟨c, cs, rfl⟩ : ∃ c cs, ds = c :: cs := by
    cases ds with
    | nil => exact absurd rfl hne
    | cons c cs => exact ⟨c, cs, rfl⟩
  have hc := hd c (by simp)
  unfold pointed
  split
  · exact ⟨c, _, rfl, hc⟩
  · split
    · exact ⟨48, _, rfl, by omega⟩
    · split
      · exact ⟨c, _, rfl, hc⟩
      · next h1 h2 h3 =>
        obtain ⟨k, hk⟩ : ∃ k, pt.toNat = k + 1 := ⟨pt.toNat - 1, by omega⟩
        rw [hk]
        exact ⟨c, _, rfl, hc⟩

theorem floatRepr_head (x : F64) : ∃ c u, floatRepr x = c :: u ∧ (c = 45 ∨ 48 ≤ c ∧ c ≤ 57) := by
  unfold floatRepr
  by_cases hs : x.sgn = true
  · rw [if_pos hs]
    exact ⟨45, _, rfl, .inl rfl⟩
  · rw [if_neg hs, List.nil_append]
    split
    · exact ⟨48, _, rfl, by omega⟩
    · obtain ⟨c, u, h, hc⟩ := pointed_head (natStr_ne (shortest (if x.val < 0 then -x.val else x.val)).1)
        (ascii_range (natStr_ascii _))
        ((natStr (shortest (if x.val < 0 then -x.val else x.val)).1).length +
          (shortest (if x.val < 0 then -x.val else x.val)).2)
      exact ⟨c, u, h, .inr hc⟩

/-- A value begins neither with white space nor with a closing bracket. -/
theorem jsonVal_head (v : PyVal) : ∃ c u, jsonVal v = c :: u ∧ jsonWhite c = false ∧ c ≠ 93 := by
  cases v with
  | none => exact ⟨110, _, rfl, rfl, by decide⟩
  | bool b => cases b <;> exact ⟨_, _, rfl, rfl, by decide⟩
  | str s => exact ⟨34, _, rfl, rfl, by decide⟩
  | float x =>
    obtain ⟨c, u, h, hc⟩ := floatRepr_head x
    refine ⟨c, u, h, ?_, by omega⟩
    simp only [jsonWhite, Bool.or_eq_false_iff, beq_eq_false_iff_ne]
    omega
  | list l => exact ⟨91, _, rfl, rfl, by decide⟩
  | dict d => exact ⟨123, _, rfl, rfl, by decide⟩

theorem skip_cons {c : Nat} {t : PyStr} (h : jsonWhite c = false) : skip (c :: t) = c :: t := by
  unfold skip
  rw [List.dropWhile_cons, h]
  rfl

theorem skip_blank (t : PyStr) : skip (32 :: t) = skip t := rfl

theorem skip_val (v : PyVal) (t : PyStr) : skip (jsonVal v ++ t) = jsonVal v ++ t := by
  obtain ⟨c, u, h, hw, -⟩ := jsonVal_head v
  rw [h, List.cons_append, skip_cons hw]

theorem readValue_blank (n : Nat) (s : PyStr) : readValue n (32 :: s) = readValue n s := by
  cases n with
  | zero => rfl
  | succ n =>
    conv => lhs; unfold readValue
    conv => rhs; unfold readValue
    rw [skip_blank]

theorem readElems_blank (n : Nat) (s : PyStr) : readElems n (32 :: s) = readElems n s := by
  cases n with
  | zero => rfl
  | succ n =>
    conv => lhs; unfold readElems
    conv => rhs; unfold readElems
    rw [readValue_blank]

theorem readMembers_blank (n : Nat) (s : PyStr) : readMembers n (32 :: s) = readMembers n s := by
  cases n with
  | zero => rfl
  | succ n =>
    conv => lhs; unfold readMembers
    conv => rhs; unfold readMembers
    rw [skip_blank]

theorem jsonVal_pos (v : PyVal) : 0 < (jsonVal v).length := by
  obtain ⟨c, u, h, -⟩ := jsonVal_head v
  rw [h]
  simp

/-! ### Lists and dictionaries -/

/-- The value is read at the beginning of any text that does not go on with a number. -/
def ReadBack (v : PyVal) : Prop :=
  ∀ n t, (jsonVal v).length < n → Stops t → readValue n (jsonVal v ++ t) = some (v, t)

theorem stops_elems (l : List PyVal) (t : PyStr) : Stops (jsonMoreElems l ++ t) := by
  cases l with
  | nil => simp [jsonMoreElems, Stops]
  | cons => simp [jsonMoreElems, Stops]

theorem stops_members (d : List (PyStr × PyVal)) (t : PyStr) : Stops (jsonMoreMembers d ++ t) := by
  cases d with
  | nil => simp [jsonMoreMembers, Stops]
  | cons => simp [jsonMoreMembers, Stops]

theorem readElems_json {v : PyVal} {l : List PyVal} (hv : ReadBack v) (hl : ∀ v ∈ l, ReadBack v) (n : Nat) (t : PyStr)
    (hn : (jsonVal v ++ jsonMoreElems l).length < n) :
    readElems n (jsonVal v ++ (jsonMoreElems l ++ t)) = some (v :: l, t) := by
  induction l generalizing v n with
  | nil =>
    obtain ⟨n, rfl⟩ : ∃ k, n = k + 1 := ⟨n - 1, by omega⟩
    simp only [jsonMoreElems, List.length_append, List.length_singleton] at hn
    unfold readElems
    rw [hv n _ (by omega) (stops_elems [] t)]
    simp only [jsonMoreElems, List.cons_append, List.nil_append]
    rw [skip_cons (by decide)]
    rfl
  | cons w l ih =>
    obtain ⟨n, rfl⟩ : ∃ k, n = k + 1 := ⟨n - 1, by omega⟩
    simp only [jsonMoreElems, List.length_append, List.length_cons, List.length_nil] at hn
    have hp := jsonVal_pos v
    unfold readElems
    rw [hv n _ (by omega) (stops_elems _ t)]
    simp only [jsonMoreElems, List.cons_append, List.nil_append, List.append_assoc]
    rw [skip_cons (by decide)]
    simp only
    rw [readElems_blank, ih (hl w (by simp)) (fun u hu => hl u (List.mem_cons_of_mem _ hu)) n (by
      simp only [List.length_append]; omega)]
    rfl

theorem readMembers_json {k : PyStr} {v : PyVal} {d : List (PyStr × PyVal)} (hk : PlainText k) (hv : ReadBack v)
    (hd : ∀ kv ∈ d, PlainText kv.1 ∧ ReadBack kv.2) (n : Nat) (t : PyStr)
    (hn : (jsonStr k ++ (py!": " ++ (jsonVal v ++ jsonMoreMembers d))).length < n) :
    readMembers n (jsonStr k ++ (py!": " ++ (jsonVal v ++ (jsonMoreMembers d ++ t)))) = some ((k, v) :: d, t) := by
  have start : ∀ u, jsonStr k ++ u = 34 :: (k.flatMap jsonChar ++ (34 :: u)) := by
    intro u
    simp [jsonStr]
  induction d generalizing k v n with
  | nil =>
    obtain ⟨n, rfl⟩ : ∃ k, n = k + 1 := ⟨n - 1, by omega⟩
    simp only [jsonMoreMembers, List.length_append, List.length_singleton] at hn
    unfold readMembers
    rw [start, skip_cons (by decide)]
    simp only
    rw [readString_json hk]
    simp only [List.cons_append, List.nil_append]
    rw [skip_cons (by decide)]
    simp only
    rw [readValue_blank, hv n _ (by omega) (stops_members [] t)]
    simp only [jsonMoreMembers, List.cons_append, List.nil_append]
    rw [skip_cons (by decide)]
    rfl
  | cons w d ih =>
    obtain ⟨k', w⟩ := w
    obtain ⟨n, rfl⟩ : ∃ k, n = k + 1 := ⟨n - 1, by omega⟩
    simp only [jsonMoreMembers, List.length_append, List.length_cons, List.length_nil] at hn
    unfold readMembers
    rw [start, skip_cons (by decide)]
    simp only
    rw [readString_json hk]
    simp only [List.cons_append, List.nil_append]
    rw [skip_cons (by decide)]
    simp only
    rw [readValue_blank, hv n _ (by omega) (stops_members _ t)]
    simp only [jsonMoreMembers, List.cons_append, List.nil_append, List.append_assoc]
    rw [skip_cons (by decide)]
    simp only
    have hw := hd (k', w) (by simp)
    have := ih hw.1 hw.2 (fun u hu => hd u (List.mem_cons_of_mem _ hu)) n (by
      simp only [List.length_append, List.length_cons, List.length_nil]; omega) (by intro u; simp [jsonStr])
    simp only [List.cons_append, List.nil_append] at this
    rw [readMembers_blank, this]
    rfl

theorem readBack {v : PyVal} (h : PlainVal v) : ReadBack v := by
  induction h with
  | none => intro n t hn _; obtain ⟨n, rfl⟩ : ∃ k, n = k + 1 := ⟨n - 1, by omega⟩; rfl
  | bool b => intro n t hn _; obtain ⟨n, rfl⟩ : ∃ k, n = k + 1 := ⟨n - 1, by omega⟩; cases b <;> rfl
  | @str s h =>
    intro n t hn _
    obtain ⟨n, rfl⟩ : ∃ k, n = k + 1 := ⟨n - 1, by omega⟩
    unfold readValue
    simp only [jsonVal, jsonStr, List.cons_append, List.append_assoc, List.nil_append]
    rw [skip_cons (by decide)]
    simp only [if_true]
    rw [readString_json h]
    rfl
  | @float x h =>
    intro n t hn ht
    obtain ⟨n, rfl⟩ : ∃ k, n = k + 1 := ⟨n - 1, by omega⟩
    have hr := readNumber_repr h ht
    unfold readValue
    rw [skip_val]
    simp only [jsonVal]
    obtain ⟨c, u, e, hc⟩ := floatRepr_head x
    rw [e, List.cons_append] at hr ⊢
    simp only
    rw [if_neg (by omega), if_neg (by omega), if_neg (by omega), if_neg (by omega), if_neg (by omega),
      if_neg (by omega), hr]
    rfl
  | @list l h ih =>
    intro n t hn ht
    obtain ⟨n, rfl⟩ : ∃ k, n = k + 1 := ⟨n - 1, by omega⟩
    unfold readValue
    simp only [jsonVal, List.cons_append]
    rw [skip_cons (by decide)]
    simp only
    rw [if_neg (by decide), if_pos trivial]
    cases l with
    | nil => simp only [jsonElems, List.cons_append, List.nil_append]; rw [skip_cons (by decide)]; rfl
    | cons v l =>
      simp only [jsonVal, jsonElems, List.length_cons] at hn
      simp only [jsonElems, List.append_assoc]
      rw [skip_val]
      have := readElems_json (ih v (by simp)) (fun u hu => ih u (List.mem_cons_of_mem _ hu)) n t (by omega)
      obtain ⟨c, u, e, -, hc⟩ := jsonVal_head v
      rw [e, List.cons_append] at this ⊢
      split
      · next h => cases h; exact absurd rfl hc
      · rw [this]; rfl
  | @dict d hk h ih =>
    intro n t hn ht
    obtain ⟨n, rfl⟩ : ∃ k, n = k + 1 := ⟨n - 1, by omega⟩
    unfold readValue
    simp only [jsonVal, List.cons_append]
    rw [skip_cons (by decide)]
    simp only
    rw [if_neg (by decide), if_neg (by decide), if_pos trivial]
    cases d with
    | nil => simp only [jsonMembers, List.cons_append, List.nil_append]; rw [skip_cons (by decide)]; rfl
    | cons kv d =>
      obtain ⟨k, v⟩ := kv
      simp only [jsonVal, jsonMembers, List.length_cons, List.append_assoc] at hn
      simp only [jsonMembers, List.append_assoc]
      have := readMembers_json (k := k) (v := v) (hk (k, v) (by simp)) (ih (k, v) (by simp))
        (fun u hu => ⟨hk u (List.mem_cons_of_mem _ hu), ih u (List.mem_cons_of_mem _ hu)⟩) n t (Nat.lt_of_succ_lt_succ hn)
      have start : ∀ u, jsonStr k ++ u = 34 :: (k.flatMap jsonChar ++ (34 :: u)) := by
        intro u
        simp [jsonStr]
      rw [start] at this ⊢
      rw [skip_cons (by decide)]
      simp only
      rw [this]
      rfl

/-- The whole text. -/
theorem readJson_json {v : PyVal} (h : PlainVal v) : readJson (jsonVal v) = some v := by
  have := readBack h ((jsonVal v).length + 1) [] (by omega) trivial
  rw [List.append_nil] at this
  unfold readJson
  rw [this]
  rfl

end Verif
