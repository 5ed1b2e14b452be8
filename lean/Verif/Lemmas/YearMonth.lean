import Verif.Lemmas.Strptime
import Verif.Lemmas.Times
import Verif.Lemmas.RunErr

/-
What `Time.__init__` does with any year and month (`time.py` 29-53).
-/

namespace Verif

/-- The ways through the pattern of `strptime`. -/
theorem strptime_bounded : (strptimeRE.paths (0, [])).isSome = true := by decide +kernel

theorem strptime_paths : ∀ x ∈ strptimeRE.paths0, pathLen x.1 ≤ 12 ∧
    x.2.2.lookup .sY = some (0, 4) ∧ ((pathCls x.1).take 5).length = 5 ∧
    ((pathCls x.1).take 5).all CC.digits = true ∧
    (pathLen x.1 = 12 → x.2.2.lookup .sm = some (4, 6)) := by
  decide +kernel

/-- A text that `strptime` reads has at most 12 characters, begins with 5 digits, the first four of
which are the year, and in a text of 12 characters the next two are the month. -/
theorem strptime_reads {s : PyStr} {t : DT} (h : strptime s = .ok t) :
    s.length ≤ 12 ∧ (s.take 5).length = 5 ∧ Digits (s.take 5) ∧ t.valid = true ∧
      t.year = digitsVal (lstrip (s.take 4)) ∧
      (s.length = 12 → t.month = digitsVal (lstrip ((s.drop 4).take 2))) := by
  have hv := strptime_valid h
  unfold strptime at h
  split at h
  · cases h
  next m hm =>
  split at h
  · cases h
  next hst =>
  simp only [ne_eq, Decidable.not_not] at hst
  simp only at h
  split at h
  case isFalse => cases h
  injection h with h
  subst h
  obtain ⟨x, hx, e1, e2, e3, hf⟩ := RE.match_path strptime_bounded hm
  obtain ⟨p1, p2, p3, p4, p5⟩ := strptime_paths x hx
  have hl : s.length = pathLen x.1 := hst.symm.trans e2
  have hs := hf.shape
  rw [List.drop_zero, ← hl, List.take_length] at hs
  have h5 := hs.take 5
  have g : ∀ n a b, x.2.2.lookup n = some (a, b) → m.group n = some ((s.drop a).take (b - a)) := by
    intro n a b hn
    unfold Match.group
    rw [e3, e1, hn]
    rfl
  refine ⟨by omega, h5.length.trans p3, ?_, hv, ?_, fun h12 => ?_⟩
  · exact (someDigits_sound (by
      unfold someDigits
      rw [p4, Bool.and_true]
      cases hc : (pathCls x.1).take 5 with
      | nil => rw [hc] at p3; cases p3
      | cons => rfl) h5).2
  · simp only [strptimeInt, g _ _ _ p2]
    simp
  · simp only [strptimeInt, g _ _ _ (p5 (by omega))]
    simp

theorem natStr_length_ge {n k : Nat} (h : 10 ^ k ≤ n) : k < (natStr n).length := by
  have := digitsVal_lt (natStr n)
  rw [natStr_val] at this
  exact (Nat.pow_lt_pow_iff_right (a := 10) (by omega)).1 (by omega)

theorem padNat_length_ge (w n : Nat) : w ≤ (padNat w n).length ∧ (natStr n).length ≤ (padNat w n).length := by
  unfold padNat
  simp
  omega

theorem not_digit_minus : isDigit 45 = false := by decide

/-- The year and month that `Time.__init__` accepts: an existing month of a four digit year, which
is then the one read; or a year of fewer digits, which is never the one read. -/
theorem strptime_year {y mo : Int} {rest : PyStr} (hr : rest.length = 6) {t : DT}
    (h : strptime (intStr y ++ padInt 2 mo ++ rest) = .ok t) :
    (1000 ≤ y ∧ y ≤ 9999 ∧ 1 ≤ mo ∧ mo ≤ 12 ∧ (t.year : Int) = y ∧ (t.month : Int) = mo) ∨
      (0 ≤ y ∧ y ≤ 999 ∧ 0 ≤ mo ∧ 1 ≤ t.year ∧ 10 * y ≤ t.year) := by
  obtain ⟨h1, h2, h3, h4, h5, h6⟩ := strptime_reads h
  rw [DT.valid_iff] at h4
  cases y with
  | negSucc n =>
    exfalso
    have := h3 45 (by simp [intStr])
    rw [not_digit_minus] at this
    cases this
  | ofNat n =>
    have ey : intStr (Int.ofNat n) = natStr n := rfl
    rw [ey] at h1 h2 h3 h5 h6
    have hn1 : 0 < (natStr n).length := List.length_pos_iff.2 (natStr_ne n)
    have hmo : 0 ≤ mo ∨ ∃ k, padInt 2 mo = 45 :: k := by
      cases mo with
      | ofNat k => exact .inl (Int.natCast_nonneg k)
      | negSucc k => exact .inr ⟨_, rfl⟩
    have h4l : (natStr n).length ≤ 4 := by
      have hp : 2 ≤ (padInt 2 mo).length := by
        cases mo with
        | ofNat k => exact (padNat_length_ge 2 k).1
        | negSucc k =>
          have := List.length_pos_iff.2 (natStr_ne (k + 1))
          simp only [padInt, List.length_cons, List.length_append, List.length_replicate]
          omega
      simp only [List.length_append, hr] at h1
      omega
    have hmo : 0 ≤ mo := by
      rcases hmo with hmo | ⟨k, hk⟩
      · exact hmo
      · exfalso
        have := h3 45 (by
          rw [hk, List.append_assoc, List.take_append]
          refine List.mem_append_right _ ?_
          rw [show 5 - (natStr n).length = (4 - (natStr n).length) + 1 by omega]
          simp)
        rw [not_digit_minus] at this
        cases this
    obtain ⟨k, rfl⟩ := Int.eq_ofNat_of_zero_le hmo
    have ek : padInt 2 (k : Int) = padNat 2 k := rfl
    rw [ek] at h1 h2 h3 h5 h6
    have hk := padNat_length_ge 2 k
    have hst : ∀ j, j ≤ 5 → lstrip ((natStr n ++ padNat 2 k ++ rest).take j) =
        (natStr n ++ padNat 2 k ++ rest).take j := by
      intro j hj
      refine lstrip_digits fun c hc => h3 c ?_
      have := List.take_take (i := j) (j := 5) (l := natStr n ++ padNat 2 k ++ rest)
      rw [Nat.min_eq_left hj] at this
      rw [← this] at hc
      exact List.mem_of_mem_take hc
    rw [hst 4 (by omega)] at h5
    by_cases hn : 1000 ≤ n
    · left
      have hl4 : (natStr n).length = 4 := by
        have := natStr_length_ge (n := n) (k := 3) hn
        omega
      have hn9 : n ≤ 9999 := by
        have := digitsVal_lt (natStr n)
        rw [natStr_val, hl4] at this
        omega
      simp only [List.length_append, hr, hl4] at h1 h6
      have hk2 : (padNat 2 k).length = 2 := by omega
      have e4 : (natStr n ++ padNat 2 k ++ rest).take 4 = natStr n := by
        rw [List.append_assoc, ← hl4, List.take_left]
      have e6 : ((natStr n ++ padNat 2 k ++ rest).drop 4).take 2 = padNat 2 k := by
        rw [List.append_assoc, ← hl4, List.drop_left, List.take_append, List.take_of_length_le (by omega), hk2]
        simp
      rw [e4, natStr_val] at h5
      have h6 := h6 (by omega)
      rw [e6, lstrip_digits (padNat_digits 2 k), padNat_val] at h6
      have := h4.1
      obtain ⟨-, -, m1, m2, -⟩ := h4.1
      rw [h5, h6]
      refine ⟨?_, ?_, ?_, ?_, rfl, rfl⟩ <;> (try simp only [Int.ofNat_eq_natCast]) <;> omega
    · right
      have hl3 : (natStr n).length ≤ 3 := natStr_length n 3 (by omega) (by omega)
      have : (natStr n ++ padNat 2 k ++ rest).take 4 =
          natStr n ++ (padNat 2 k ++ rest).take (4 - (natStr n).length) := by
        rw [List.append_assoc, List.take_append, List.take_of_length_le (by omega)]
      rw [this, digitsVal_append, natStr_val] at h5
      have hlen : ((padNat 2 k ++ rest).take (4 - (natStr n).length)).length =
          4 - (natStr n).length := by
        simp only [List.length_take, List.length_append, hr]
        omega
      rw [hlen] at h5
      have hp : 10 ^ 1 ≤ 10 ^ (4 - (natStr n).length) :=
        Nat.pow_le_pow_right (by omega) (by omega)
      have := Nat.mul_le_mul_left n hp
      obtain ⟨y1, -⟩ := h4.1
      simp only [Int.ofNat_eq_natCast]
      refine ⟨by omega, by omega, by omega, y1, by omega⟩

/-- The same of a whole `Time`. -/
theorem Time.new_year {now : Now} {code i h d : Option PyStr} {y mo : Int}
    (hi : (i.getD py!"00").length = 2) (hh : (h.getD py!"00").length = 2)
    (hd : (d.getD py!"01").length = 2) {t : Time}
    (e : Time.new now code i h d (some mo) (some y) = .ok t) :
    (1000 ≤ y ∧ y ≤ 9999 ∧ 1 ≤ mo ∧ mo ≤ 12 ∧ (t.time.year : Int) = y ∧ (t.time.month : Int) = mo) ∨
      (0 ≤ y ∧ y ≤ 999 ∧ 0 ≤ mo ∧ 1 ≤ t.time.year ∧ 10 * y ≤ t.time.year) := by
  unfold Time.new at e
  simp only [Option.getD_some] at e
  split at e
  · cases e
  next u hu =>
  injection e with e
  subst e
  rw [List.append_assoc, List.append_assoc] at hu
  exact strptime_year (by simp [hi, hh, hd]) hu

theorem Time.fromMetar_year {now : Now} {g : Option Match} {y mo : Int}
    (hg : ∀ m, g = some m → ∃ s, MetarRegExp.TIME.match s = some m) {t : Time}
    (e : Time.fromMetar now g (some y) (some mo) = .ok t) :
    (1000 ≤ y ∧ y ≤ 9999 ∧ 1 ≤ mo ∧ mo ≤ 12 ∧ (t.time.year : Int) = y ∧ (t.time.month : Int) = mo) ∨
      (0 ≤ y ∧ y ≤ 999 ∧ 0 ≤ mo ∧ 1 ≤ t.time.year ∧ 10 * y ≤ t.time.year) := by
  cases g with
  | none => exact Time.new_year rfl rfl rfl e
  | some m =>
    obtain ⟨s, hm⟩ := hg m rfl
    obtain ⟨d, h, i, gd, gh, gi, hd, hh, hi⟩ := time_groups hm
    have l1 : ∀ k ∈ hourShapes, k.length = 2 := by decide
    have l2 : ∀ k ∈ dayShapes, k.length = 2 := by decide
    have l3 : ∀ k ∈ minuteShapes, k.length = 2 := by decide
    have ld : d.length = 2 := by
      obtain ⟨k, hk, hs⟩ := hd
      rw [hs.length, l2 k hk]
    have lh : h.length = 2 := by
      rcases hh with ⟨k, hk, hs⟩ | hs
      · rw [hs.length, l1 k hk]
      · exact hs.length
    have li : i.length = 2 := by
      obtain ⟨k, hk, hs⟩ := hi
      rw [hs.length, l3 k hk]
    simp only [Time.fromMetar] at e
    rw [gd, gh, gi] at e
    exact Time.new_year (by simpa using li) (by simpa using lh) (by simpa using ld) e

/-! ### Texts without a time group -/

theorem tryHandlers_regexps {σ : Type} {hs hs' : List (Handler σ)}
    (h : hs.map (·.regexp) = hs'.map (·.regexp)) (g : PyStr) (k : Nat) :
    (tryHandlers hs g k).map (·.1) = (tryHandlers hs' g k).map (·.1) := by
  induction hs generalizing hs' k with
  | nil =>
    cases hs' with
    | nil => rfl
    | cons => simp at h
  | cons x t ih =>
    cases hs' with
    | nil => simp at h
    | cons x' t' =>
      simp only [List.map_cons, List.cons.injEq] at h
      unfold tryHandlers
      rw [h.1]
      split
      · rfl
      · exact ih h.2 _

theorem assign_regexps {σ : Type} {hs hs' : List (Handler σ)}
    (h : hs.map (·.regexp) = hs'.map (·.regexp)) (k : Nat) (gs : List PyStr) :
    assign hs k gs = assign hs' k gs := by
  induction gs generalizing k with
  | nil => rfl
  | cons g gs ih =>
    have ht := tryHandlers_regexps (hs := hs.drop k) (hs' := hs'.drop k)
      (by rw [List.map_drop, List.map_drop, h]) g 0
    unfold assign
    cases h1 : tryHandlers (hs.drop k) g 0 with
    | none =>
      rw [h1] at ht
      cases h2 : tryHandlers (hs'.drop k) g 0 with
      | none => simp only [ih]
      | some x => rw [h2] at ht; cases ht
    | some x =>
      rw [h1] at ht
      cases h2 : tryHandlers (hs'.drop k) g 0 with
      | none => rw [h2] at ht; cases ht
      | some x' =>
        rw [h2] at ht
        simp only [Option.map_some, Option.some.injEq] at ht
        simp only [ht, ih]

/-- Methods that are not called do not matter. -/
theorem Spec.Runs.other {σ : Type} {hs hs' : List (Handler σ)} {c : List (PyStr × Nat)} {s : σ}
    {out : Except Exc σ} (h : Spec.Runs hs c s out) (he : ∀ g i, (g, i) ∈ c → hs[i]? = hs'[i]?) :
    Spec.Runs hs' c s out := by
  induction h with
  | nil s => exact .nil s
  | fail h1 h2 h3 => exact .fail (by rw [← he _ _ List.mem_cons_self]; exact h1) h2 h3
  | step h1 h2 h3 _ ih =>
    exact .step (by rw [← he _ _ List.mem_cons_self]; exact h1) h2 h3
      (ih fun g i hg => he g i (List.mem_cons_of_mem _ hg))

theorem parseSection_other {σ : Type} {hs hs' : List (Handler σ)}
    (h : hs.map (·.regexp) = hs'.map (·.regexp)) {text : PyStr} {s : σ}
    (he : ∀ g i, (g, i) ∈ Spec.consumed (splitC 32 text) (assign hs 0 (splitC 32 text)) →
      hs[i]? = hs'[i]?) : parseSection hs text s = parseSection hs' text s := by
  obtain ⟨o, h1, h2⟩ := @parseSection_eq σ hs text s
  obtain ⟨o', h1', h2'⟩ := @parseSection_eq σ hs' text s
  rw [← assign_regexps h] at h1' h2'
  rw [h2, h2', (h1.other he).det h1']

end Verif
