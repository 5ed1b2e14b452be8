import Verif.Lemmas.Repr
import Verif.Spec.Json
import Verif.Model.Json

/-
Reading what `json.dumps` wrote.
-/

namespace Verif
open Spec

/-! ### Strings -/

/-- The units of UTF-16 of a character. -/
def unitsOf (c : Nat) : List Nat :=
  if c < 65536 then [c] else [55296 + (c - 65536) / 1024 % 1024, 56320 + (c - 65536) % 1024]

theorem unitsOf_low {c : Nat} (h : c < 65536) : unitsOf c = [c] := if_pos h
theorem unitsOf_high {c : Nat} (h : ¬ c < 65536) :
    unitsOf c = [55296 + (c - 65536) / 1024 % 1024, 56320 + (c - 65536) % 1024] := if_neg h

theorem hexValue_digit {n : Nat} (h : n < 16) : hexValue (hexDigit n) = some n := by
  have : ∀ n < 16, hexValue (hexDigit n) = some n := by decide
  exact this n h

theorem readUnits_hex {n : Nat} (h : n < 65536) (t : PyStr) :
    readUnits ((92 :: 117 :: hex4 n) ++ t) = (readUnits t).map fun r => (n :: r.1, r.2) := by
  have e : (((n / 4096 % 16 * 16 + n / 256 % 16) * 16 + n / 16 % 16) * 16 + n % 16) = n := by omega
  conv => lhs; unfold readUnits
  simp only [hex4, List.cons_append, List.nil_append]
  rw [if_neg (by decide), if_neg (by decide), if_pos trivial, if_pos trivial]
  simp only [hexValue_digit (Nat.mod_lt _ (show 0 < 16 by decide)), e]

theorem readUnits_short {e x : Nat} (h : escapes.lookup e = some x) (he : e ≠ 117) (t : PyStr) :
    readUnits ([92, e] ++ t) = (readUnits t).map fun r => (x :: r.1, r.2) := by
  conv => lhs; unfold readUnits
  simp only [List.cons_append, List.nil_append]
  rw [if_neg (by decide), if_neg (by decide), if_pos trivial, if_neg he]
  simp only [h]

theorem readUnits_char {c : Nat} (h : c < 1114112) (t : PyStr) :
    readUnits (jsonChar c ++ t) = (readUnits t).map fun r => (unitsOf c ++ r.1, r.2) := by
  unfold jsonChar unitsOf
  split
  · next hc => subst hc; exact readUnits_short (by decide) (by decide) t
  split
  · next hc => subst hc; exact readUnits_short (by decide) (by decide) t
  split
  · next h1 h2 hc =>
    conv => lhs; unfold readUnits
    simp only [List.cons_append, List.nil_append]
    rw [if_neg h1, if_neg (by omega), if_neg h2, if_pos (by omega)]
    rfl
  split
  · next hc => subst hc; exact readUnits_short (by decide) (by decide) t
  split
  · next hc => subst hc; exact readUnits_short (by decide) (by decide) t
  split
  · next hc => subst hc; exact readUnits_short (by decide) (by decide) t
  split
  · next hc => subst hc; exact readUnits_short (by decide) (by decide) t
  split
  · next hc => subst hc; exact readUnits_short (by decide) (by decide) t
  split
  · next hc => exact readUnits_hex hc t
  · next hc =>
    simp only
    rw [List.append_assoc, readUnits_hex (by omega), readUnits_hex (by omega), Option.map_map]
    rfl

theorem readUnits_text {s : PyStr} (h : ∀ c ∈ s, c < 1114112) (t : PyStr) :
    readUnits (s.flatMap jsonChar ++ (34 :: t)) = some (s.flatMap unitsOf, t) := by
  induction s with
  | nil => unfold readUnits; simp
  | cons c s ih =>
    rw [List.flatMap_cons, List.append_assoc, readUnits_char (h c (by simp)),
      ih fun d hd => h d (List.mem_cons_of_mem _ hd)]
    rfl

theorem joinSurrogates_cons {c : Nat} {s : List Nat}
    (h : ¬ (HighSurrogate c ∧ ∃ l t, s = l :: t ∧ LowSurrogate l)) :
    joinSurrogates (c :: s) = c :: joinSurrogates s := by
  cases s with
  | nil => rfl
  | cons l t =>
    rw [joinSurrogates, if_neg]
    exact fun hh => h ⟨hh.1, l, t, rfl, hh.2⟩

theorem joinSurrogates_units {s : PyStr} (h : PlainText s) : joinSurrogates (s.flatMap unitsOf) = s := by
  induction s with
  | nil => rfl
  | cons c s ih =>
    have ih := ih ⟨fun d hd => h.unicode d (List.mem_cons_of_mem _ hd), fun a x y b e => by
      exact h.single (c :: a) x y b (by rw [e]; rfl)⟩
    have hc := h.unicode c (by simp)
    rw [List.flatMap_cons]
    by_cases hlt : c < 65536
    · rw [unitsOf_low hlt, List.singleton_append, joinSurrogates_cons, ih]
      rintro ⟨h1, l, t, e, h2⟩
      cases s with
      | nil => cases e
      | cons d s =>
        rw [List.flatMap_cons] at e
        by_cases hd : d < 65536
        · rw [unitsOf_low hd] at e
          simp only [List.cons_append, List.nil_append, List.cons.injEq] at e
          exact h.single [] c d s rfl ⟨h1, e.1 ▸ h2⟩
        · rw [unitsOf_high hd] at e
          simp only [List.cons_append, List.nil_append, List.cons.injEq] at e
          obtain ⟨h3, h4⟩ := h2
          omega
    · rw [unitsOf_high hlt, List.cons_append, List.cons_append, List.nil_append, joinSurrogates, if_pos, ih]
      · have e : 65536 + (55296 + (c - 65536) / 1024 % 1024 - 55296) * 1024 +
            (56320 + (c - 65536) % 1024 - 56320) = c := by omega
        rw [e]
      · constructor <;> constructor <;> omega

theorem readString_json {s : PyStr} (h : PlainText s) (t : PyStr) :
    readString (s.flatMap jsonChar ++ (34 :: t)) = some (s, t) := by
  unfold readString
  rw [readUnits_text h.unicode, Option.map_some, joinSurrogates_units h]

/-! ### Numbers -/

/-- The text does not go on with a number. -/
def Stops : PyStr → Prop
  | [] => True
  | c :: _ => ¬ (48 ≤ c ∧ c ≤ 57) ∧ c ≠ 46 ∧ c ≠ 101 ∧ c ≠ 69

theorem takeDigits_append {ds t : PyStr} (h : ∀ c ∈ ds, 48 ≤ c ∧ c ≤ 57)
    (ht : ∀ c u, t = c :: u → ¬ (48 ≤ c ∧ c ≤ 57)) : takeDigits (ds ++ t) = (ds, t) := by
  induction ds with
  | nil =>
    cases t with
    | nil => rfl
    | cons c u => simp only [List.nil_append, takeDigits]; rw [if_neg (ht c u rfl)]
  | cons c ds ih =>
    rw [List.cons_append, takeDigits, if_pos (h c (by simp)), ih fun d hd => h d (List.mem_cons_of_mem _ hd)]

theorem decimalValue_digits {ds : PyStr} (h : ∀ c ∈ ds, 48 ≤ c ∧ c ≤ 57) : decimalValue ds = digitsVal ds := by
  unfold decimalValue digitsVal
  generalize (0 : Nat) = n
  induction ds generalizing n with
  | nil => rfl
  | cons c ds ih =>
    obtain ⟨k, rfl⟩ : ∃ k, c = 48 + k := ⟨c - 48, by have := h c (by simp); omega⟩
    have hk : k < 10 := by have := h (48 + k) (by simp); omega
    rw [List.foldl_cons, List.foldl_cons, digitVal_ascii k hk, show 48 + k - 48 = k by omega]
    exact ih (fun d hd => h d (List.mem_cons_of_mem _ hd)) _

/-- The exponent of a number. -/
def expText : Option (Bool × PyStr) → PyStr
  | none => []
  | some (neg, es) => (if neg then [101, 45] else [101, 43]) ++ es

def expValue : Option (Bool × PyStr) → Int
  | none => 0
  | some (neg, es) => if neg then -(decimalValue es : Int) else decimalValue es

theorem readDecimal_parts {w f : PyStr} {e : Option (Bool × PyStr)} {t : PyStr}
    (hw : w ≠ []) (hd : ∀ c ∈ w, 48 ≤ c ∧ c ≤ 57) (hz : w.length = 1 ∨ w.head? ≠ some 48)
    (hf : ∀ c ∈ f, 48 ≤ c ∧ c ≤ 57) (he : ∀ n es, e = some (n, es) → es ≠ [] ∧ ∀ c ∈ es, 48 ≤ c ∧ c ≤ 57)
    (ht : Stops t) :
    readDecimal (w ++ ((if f = [] then [] else 46 :: f) ++ (expText e ++ t))) =
      some ((decimalValue (w ++ f) : Rat) * 10 ^ (expValue e - f.length), t) := by
  have hstop : ∀ c u, t = c :: u → ¬ (48 ≤ c ∧ c ≤ 57) := by
    rintro c u rfl
    exact ht.1
  have h3 : readPower (expText e ++ t) = some (expValue e, t) := by
    unfold readPower
    cases e with
    | none =>
      cases t with
      | nil => rfl
      | cons c u =>
        simp only [expText, List.nil_append]
        split
        · next h => cases h; exact absurd rfl ht.2.2.1
        · next h => cases h; exact absurd rfl ht.2.2.2
        · rfl
    | some x =>
      obtain ⟨neg, es⟩ := x
      obtain ⟨e1, e2⟩ := he neg es rfl
      cases neg <;>
      simp only [expText, expValue, Bool.false_eq_true, if_false, if_true, List.cons_append, List.nil_append,
        readExponent, takeDigits_append e2 hstop, if_neg e1]
  have hexp : ∀ c u, expText e ++ t = c :: u → ¬ (48 ≤ c ∧ c ≤ 57) := by
    intro c u h
    cases e with
    | none => exact hstop c u h
    | some x =>
      obtain ⟨neg, es⟩ := x
      cases neg <;>
      simp only [expText, Bool.false_eq_true, if_false, if_true, List.cons_append, List.cons.injEq] at h <;> omega
  have hnopt : ∀ u, expText e ++ t ≠ 46 :: u := by
    intro u h
    cases e with
    | none =>
      simp only [expText, List.nil_append] at h
      rw [h] at ht
      exact ht.2.1 rfl
    | some x =>
      obtain ⟨neg, es⟩ := x
      cases neg <;>
      simp [expText] at h
  have h2 : readFraction ((if f = [] then [] else 46 :: f) ++ (expText e ++ t)) = some (f, expText e ++ t) := by
    unfold readFraction
    by_cases hf0 : f = []
    · rw [if_pos hf0, hf0, List.nil_append]
      split
      · next h => exact absurd h (hnopt _)
      · rfl
    · rw [if_neg hf0, List.cons_append]
      simp only [takeDigits_append hf hexp]
      rw [if_neg hf0]
  have h1 : takeDigits (w ++ ((if f = [] then [] else 46 :: f) ++ (expText e ++ t))) =
      (w, (if f = [] then [] else 46 :: f) ++ (expText e ++ t)) := by
    refine takeDigits_append hd fun c u h => ?_
    by_cases hf0 : f = []
    · rw [if_pos hf0, List.nil_append] at h
      exact hexp c u h
    · rw [if_neg hf0, List.cons_append, List.cons.injEq] at h
      omega
  unfold readDecimal
  rw [h1]
  simp only
  rw [if_neg (by
    rintro (h | ⟨h, h'⟩)
    · exact hw h
    · rcases hz with hz | hz
      · exact h hz
      · exact hz h')]
  rw [h2, Option.bind_some, h3, Option.map_some]

theorem ascii_range {ds : PyStr} (h : ∀ c ∈ ds, ascii.mem c = true) : ∀ c ∈ ds, 48 ≤ c ∧ c ≤ 57 :=
  fun c hc => mem_ascii.1 (h c hc)

theorem natStr_head {n : Nat} (h : 0 < n) : (natStr n).head? ≠ some 48 := by
  have key : ∀ f n, 0 < n → n ≤ f → (natStrGo f n).head? ≠ some 48 := by
    intro f
    induction f with
    | zero => intro n h1 h2; omega
    | succ f ih =>
      intro n h1 h2
      unfold natStrGo
      split
      · simp; omega
      · next h3 =>
        have := ih (n / 10) (by omega) (by omega)
        have hne := (natStrGo_spec f (n / 10) (by omega)).2.2.1
        cases hs : natStrGo f (n / 10) with
        | nil => exact absurd hs hne
        | cons c t => rw [hs] at this; simpa using this
  exact key n n h (Nat.le_refl _)

theorem decimalValue_append (a b : PyStr) : decimalValue (a ++ b) = decimalValue a * 10 ^ b.length + decimalValue b := by
  unfold decimalValue
  rw [List.foldl_append]
  generalize a.foldl (fun n c => 10 * n + (c - 48)) 0 = m
  have key : ∀ (b : PyStr) (m : Nat), b.foldl (fun n c => 10 * n + (c - 48)) m =
      m * 10 ^ b.length + b.foldl (fun n c => 10 * n + (c - 48)) 0 := by
    intro b
    induction b with
    | nil => intro m; simp
    | cons c b ih =>
      intro m
      rw [List.foldl_cons, List.foldl_cons, ih, ih (10 * 0 + (c - 48)), List.length_cons, Nat.pow_succ]
      have : (10 * m + (c - 48)) * 10 ^ b.length = m * (10 ^ b.length * 10) + (c - 48) * 10 ^ b.length := by
        rw [Nat.add_mul, Nat.mul_comm (10 ^ b.length) 10, ← Nat.mul_assoc, Nat.mul_comm m 10]
      rw [this]
      simp only [Nat.mul_zero, Nat.zero_add]
      omega
  exact key b m

theorem decimalValue_zeros (k : Nat) : decimalValue (List.replicate k 48) = 0 := by
  induction k with
  | zero => rfl
  | succ k ih =>
    rw [List.replicate_succ, show (48 :: List.replicate k 48) = [48] ++ List.replicate k 48 from rfl,
      decimalValue_append, ih, show decimalValue [48] = 0 from rfl, Nat.zero_mul]

theorem zpow_ten_nat (k : Nat) (p : Int) : ((10 ^ k : Nat) : Rat) * 10 ^ p = 10 ^ (k + p) := by
  rw [Rat.zpow_add ten_ne_zero, Rat.zpow_natCast, Rat.natCast_pow]
  rfl

theorem readDecimal_pointed {ds : PyStr} (hne : ds ≠ []) (hd : ∀ c ∈ ds, 48 ≤ c ∧ c ≤ 57)
    (hh : ds.head? ≠ some 48) {pt : Int} {t : PyStr} (ht : Stops t) :
    readDecimal (pointed ds pt ++ t) = some ((decimalValue ds : Rat) * 10 ^ (pt - ds.length), t) := by
  have zeros : ∀ k, ∀ c ∈ List.replicate k 48, 48 ≤ c ∧ c ≤ 57 := by
    intro k c hc
    rw [List.mem_replicate] at hc
    omega
  unfold pointed
  split
  · obtain ⟨c, cs, rfl⟩ : ∃ c cs, ds = c :: cs := by
      cases ds with
      | nil => exact absurd rfl hne
      | cons c cs => exact ⟨c, cs, rfl⟩
    have key := readDecimal_parts (w := [c]) (f := cs) (e := some (decide (pt - 1 < 0), padNat 2 (pt - 1).natAbs))
      (t := t) (by simp) (fun d hd' => hd d (by simp at hd'; simp [hd'])) (.inl rfl)
      (fun d hd' => hd d (List.mem_cons_of_mem _ hd')) (by
        rintro n es h
        cases h
        exact ⟨padNat_ne _ _, ascii_range (padNat_ascii _ _)⟩) ht
    have e1 : (if (c :: cs).length ≤ 1 then [] else 46 :: (c :: cs).drop 1) = if cs = [] then [] else 46 :: cs := by
      cases cs <;> simp
    have e2 : expText (some (decide (pt - 1 < 0), padNat 2 (pt - 1).natAbs)) =
        (if pt - 1 < 0 then [101, 45] else [101, 43]) ++ padNat 2 (pt - 1).natAbs := by
      simp only [expText, decide_eq_true_eq]
    have e3 : expValue (some (decide (pt - 1 < 0), padNat 2 (pt - 1).natAbs)) = pt - 1 := by
      simp only [expValue, decide_eq_true_eq]
      rw [decimalValue_digits (ascii_range (padNat_ascii _ _)), padNat_val]
      split <;> omega
    rw [e1]
    simp only [List.take_succ_cons, List.take_zero, List.append_assoc]
    rw [e2, e3, List.append_assoc] at key
    rw [key]
    congr 4
    simp only [List.length_cons]
    omega
  · split
    · next h1 h2 =>
      have key := readDecimal_parts (w := [48]) (f := List.replicate pt.natAbs 48 ++ ds) (e := none)
        (t := t) (by simp) (by simp) (.inl rfl) (by
          intro c hc
          rcases List.mem_append.1 hc with hc | hc
          · exact zeros _ c hc
          · exact hd c hc) (by rintro _ _ ⟨⟩) ht
      rw [if_neg (by simp [hne])] at key
      simp only [expText, List.nil_append, List.cons_append, List.append_assoc] at key ⊢
      rw [key]
      congr 2
      rw [show (48 :: (List.replicate pt.natAbs 48 ++ ds)) = [48] ++ (List.replicate pt.natAbs 48 ++ ds) from rfl,
        decimalValue_append, decimalValue_append, decimalValue_zeros]
      have : decimalValue [48] = 0 := rfl
      rw [this]
      simp only [Nat.zero_mul, Nat.zero_add, expValue, List.length_append, List.length_replicate]
      congr 2
      omega
    · split
      · next h1 h2 h3 =>
        have key := readDecimal_parts (w := ds ++ List.replicate (pt.toNat - ds.length) 48) (f := [48]) (e := none)
          (t := t) (by simp [hne]) (by
            intro c hc
            rcases List.mem_append.1 hc with hc | hc
            · exact hd c hc
            · exact zeros _ c hc) (.inr (by
              cases ds with
              | nil => exact absurd rfl hne
              | cons c cs => exact hh)) (by simp) (by rintro _ _ ⟨⟩) ht
        rw [if_neg (by simp)] at key
        simp only [expText, List.nil_append, List.cons_append, List.append_assoc] at key ⊢
        rw [key]
        congr 2
        rw [decimalValue_append, decimalValue_append, decimalValue_zeros]
        have : decimalValue [48] = 0 := rfl
        rw [this]
        simp only [Nat.add_zero, Nat.zero_mul, Nat.zero_add, expValue, List.length_append, List.length_replicate,
          List.length_cons, List.length_nil]
        rw [Rat.natCast_mul, Rat.mul_assoc, zpow_ten_nat]
        congr 2
        omega
      · next h1 h2 h3 =>
        have hlen : pt.toNat < ds.length := by omega
        have key := readDecimal_parts (w := ds.take pt.toNat) (f := ds.drop pt.toNat) (e := none)
          (t := t) (by simp [hne]; omega) (fun c hc => hd c (List.mem_of_mem_take hc)) (.inr (by
              cases ds with
              | nil => exact absurd rfl hne
              | cons c cs =>
                obtain ⟨k, hk⟩ : ∃ k, pt.toNat = k + 1 := ⟨pt.toNat - 1, by omega⟩
                rw [hk]
                exact hh)) (fun c hc => hd c (List.mem_of_mem_drop hc)) (by rintro _ _ ⟨⟩) ht
        rw [if_neg (by simp; omega)] at key
        simp only [expText, List.nil_append, List.cons_append, List.append_assoc] at key ⊢
        rw [key, List.take_append_drop]
        congr 4
        simp only [expValue, List.length_drop]
        omega

theorem readNumber_repr {x : F64} (h : Double x) {t : PyStr} (ht : Stops t) :
    readNumber (floatRepr x ++ t) = some (x, t) := by
  have pos : ∀ v : Rat, 0 < v → rnd v = v →
      ∃ q, readDecimal (pointed (natStr (shortest v).1) ((natStr (shortest v).1).length + (shortest v).2) ++ t) =
        some (q, t) ∧ rnd q = v ∧ 0 < q := by
    intro v hv hr
    have hs := shortest_reads hv hr
    rw [mulPow10_eq] at hs
    generalize shortest v = k at hs
    have hk : 0 < k.1 := by
      rcases Nat.eq_zero_or_pos k.1 with h | h
      · rw [h] at hs
        have : ((0 : Nat) : Rat) * 10 ^ k.2 = 0 := by
          have : ((0 : Nat) : Rat) = 0 := rfl
          rw [this]; grind
        rw [this, rnd_zero] at hs
        grind
      · exact h
    have hd := ascii_range (natStr_ascii k.1)
    refine ⟨_, readDecimal_pointed (natStr_ne _) hd (natStr_head hk) ht, ?_⟩
    rw [decimalValue_digits hd, natStr_val, show ((natStr k.1).length : Int) + k.2 - (natStr k.1).length = k.2 by omega]
    exact ⟨hs, Rat.mul_pos (natCast_pos hk) (zpow_ten_pos _)⟩
  obtain ⟨hr, hz⟩ := h
  obtain ⟨v, nz⟩ := x
  simp only at hr hz
  unfold floatRepr
  by_cases h0 : v = 0
  · subst h0
    have hread : ∀ t, Stops t → readDecimal (py!"0.0" ++ t) = some (0, t) := by
      intro t ht
      have := readDecimal_parts (w := [48]) (f := [48]) (e := none) (t := t) (by simp) (by simp) (.inl rfl) (by simp)
        (by rintro _ _ ⟨⟩) ht
      rw [if_neg (by simp)] at this
      simp only [expText, List.nil_append] at this
      have e : ((decimalValue ([48] ++ [48]) : Nat) : Rat) * 10 ^ (expValue none - (([48] : PyStr).length : Int)) = 0 := by
        decide +kernel
      rw [e] at this
      exact this
    cases nz with
    | false =>
      have : (⟨0, false⟩ : F64).sgn = false := by decide
      simp only [this, if_true, Bool.false_eq_true, if_false, List.nil_append]
      show (readDecimal (py!"0.0" ++ t)).map _ = _
      rw [hread t ht]
      rfl
    | true =>
      have : (⟨0, true⟩ : F64).sgn = true := by decide
      simp only [this, if_true, List.cons_append, List.nil_append]
      show (readDecimal (py!"0.0" ++ t)).map _ = _
      rw [hread t ht]
      rfl
  · have hnz : nz = false := by
      cases nz with
      | false => rfl
      | true => exact absurd (hz rfl) h0
    subst hnz
    simp only [F64.sgn, Bool.or_false, if_neg h0, decide_eq_true_eq]
    by_cases hneg : v < 0
    · rw [if_pos hneg, if_pos hneg]
      obtain ⟨q, h1, h2, h3⟩ := pos (-v) (by grind) (by rw [rnd_neg, hr])
      rw [List.append_assoc, List.cons_append, List.nil_append]
      show (readDecimal _).map _ = _
      rw [h1, Option.map_some]
      simp only [F64.mk', rnd_neg, h2, Rat.neg_neg]
      simp [h0]
    · rw [if_neg hneg, if_neg hneg, List.nil_append]
      have hpos : 0 < v := by grind
      obtain ⟨q, h1, h2, h3⟩ := pos v hpos hr
      generalize hT : pointed (natStr (shortest v).1) ((natStr (shortest v).1).length + (shortest v).2) ++ t = T at *
      unfold readNumber
      split
      · rw [show readDecimal (45 :: _) = none from rfl] at h1
        cases h1
      · rw [h1, Option.map_some]
        simp only [F64.mk', h2]
        simp

end Verif
