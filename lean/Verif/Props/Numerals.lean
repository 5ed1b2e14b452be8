import Verif.Lemmas.Numerals
import Verif.Lemmas.Printing
import Verif.Lemmas.ReprRead
import Verif.Lemmas.Wind
import Verif.Lemmas.Visibility
import Verif.Lemmas.Clouds
import Verif.Lemmas.Chars
import Verif.Model.Taf

/-
C93: `int` and `float` of the texts that the library passes to them.
-/

namespace Verif.Props
open Verif Verif.Spec

/-- C93. On the texts that the library passes to `float`, the restricted reader of the model finds a
number exactly if Python does, and the same one. -/
theorem C93_float (t : PyStr) (h : PlainFloat t) :
    (∀ x, floatOf t = some x ↔
      ∃ neg q, FloatText t (.finite neg q) ∧ x = F64.mk' (if neg then -q else q) neg) ∧
    (floatOf t = none ↔ ∀ v, ¬ FloatText t v) ∧
    ∀ v w, FloatText t v → FloatText t w → ∃ a q b r, v = .finite a q ∧ w = .finite b r ∧
      F64.mk' (if a then -q else q) a = F64.mk' (if b then -r else r) b := by
  refine ⟨fun x => ⟨text_of_floatOf, ?_⟩, ⟨?_, ?_⟩, ?_⟩
  · rintro ⟨neg, q, ht, rfl⟩
    obtain ⟨a, r, e, hf⟩ := floatOf_of_text h ht
    cases e
    exact hf
  · intro hn v hv
    obtain ⟨_, _, _, hf⟩ := floatOf_of_text h hv
    rw [hn] at hf
    cases hf
  · intro hn
    cases hf : floatOf t with
    | none => rfl
    | some x =>
      obtain ⟨_, _, ht, _⟩ := text_of_floatOf hf
      exact absurd ht (hn _)
  · intro v w hv hw
    obtain ⟨a, q, rfl, h1⟩ := floatOf_of_text h hv
    obtain ⟨b, r, rfl, h2⟩ := floatOf_of_text h hw
    rw [h1] at h2
    exact ⟨a, q, b, r, rfl, rfl, Option.some.inj h2⟩

/-- The two kinds of texts, and one that has no reading. -/
example : PlainFloat py!"-070" ∧ PlainFloat py!"13.606911564638546" ∧ PlainFloat py!"VRB" ∧
    floatOf py!"-070" = some ⟨-70, false⟩ ∧ floatOf py!"VRB" = none :=
  ⟨.inl (by decide +kernel),
    .inr ⟨[], py!"13", py!"606911564638546", by decide +kernel, rfl, by decide, by decide,
      by decide +kernel, by decide +kernel⟩,
    .inl (by decide +kernel), by decide +kernel, by decide +kernel⟩

/-- Why the restriction is needed: `float` reads more than the model does. -/
example : FloatText py!" +1_0e1\n" (.finite false (10 * 10 ^ (1 : Int))) ∧ floatOf py!" +1_0e1\n" = none ∧
    ¬ PlainFloat py!" +1_0e1\n" := by
  refine ⟨⟨[32], py!"+1_0e1", [10], rfl, by decide +kernel, by decide +kernel, ?_⟩, by decide +kernel, ?_⟩
  · have d1 : DigitPart py!"1" 1 1 := .one (c := 49) (by decide +kernel)
    have d2 : DigitPart py!"1_0" 10 2 := .under (c := 48) d1 (by decide +kernel)
    exact FloatBody.power (s := [43]) (t := py!"1_0") (e := []) (u := py!"1") (c := 101)
      .plus (.whole d2) (.inl rfl) .none d1
  · intro h
    exact absurd (h.chars 32 (by decide)) (by unfold PlainChar; decide +kernel)

/-- C93. The same for `int`. -/
theorem C93_int (t : PyStr) (h : PlainInt t) :
    (∀ z : Int, IntText t z ↔ ∃ n : Nat, intOf t = some n ∧ z = n) ∧
    (intOf t = none ↔ ∀ z, ¬ IntText t z) := by
  have key : ∀ z : Int, IntText t z ↔ ∃ n : Nat, intOf t = some n ∧ z = n := by
    intro z
    constructor
    · intro hz
      obtain ⟨n, rfl⟩ := Int.eq_ofNat_of_zero_le (intText_nonneg h hz)
      exact ⟨n, (intOf_iff h n).2 hz, rfl⟩
    · rintro ⟨n, hn, rfl⟩
      exact (intOf_iff h n).1 hn
  refine ⟨key, ?_⟩
  cases hi : intOf t with
  | none =>
    refine ⟨fun _ z hz => ?_, fun _ => rfl⟩
    obtain ⟨n, hn, _⟩ := (key z).1 hz
    rw [hi] at hn
    cases hn
  | some n =>
    constructor
    · intro e; cases e
    · intro hz
      exact absurd ((key n).2 ⟨n, hi, rfl⟩) (hz n)

example : PlainInt py!"07" ∧ PlainInt py!"//" ∧ intOf py!"07" = some 7 ∧ intOf py!"//" = none := by
  unfold PlainInt; decide +kernel

/-! ### The texts -/

/-- The groups of matches that go into `float`, as they are or with `0` or `00` behind them or `0` or a
minus sign in front (wind.py 35-47, 138-148, 214-217; visibility.py 134-137, 179; runway_range.py 74-80;
cloud.py 102-107; temperature.py 10-22; temperatures.py 37-42; metar/pressure.py 24; sea_state.py 57-62;
taf/temperature.py 26-29). -/
def floatGroups : List (RE × Cap) :=
  [(MetarRegExp.WIND, .dir), (MetarRegExp.WIND, .speed), (MetarRegExp.WIND, .gust),
   (MetarRegExp.WIND_VARIATION, .from_), (MetarRegExp.WIND_VARIATION, .to),
   (MetarRegExp.VISIBILITY, .vis), (MetarRegExp.VISIBILITY, .integer), (MetarRegExp.MINIMUM_VISIBILITY, .vis),
   (MetarRegExp.RUNWAY_RANGE, .low), (MetarRegExp.RUNWAY_RANGE, .high), (MetarRegExp.CLOUD, .height),
   (MetarRegExp.TEMPERATURES, .temp), (MetarRegExp.TEMPERATURES, .dewpt), (MetarRegExp.PRESSURE, .press),
   (MetarRegExp.SEA_STATE, .temp),
   (TafRegExp.WIND, .dir), (TafRegExp.WIND, .speed), (TafRegExp.WIND, .gust),
   (TafRegExp.VISIBILITY, .vis), (TafRegExp.VISIBILITY, .integer), (TafRegExp.TEMPERATURE, .temp)]

/-- The groups that go into `int` (visibility.py 142; runway_state.py 102, 118, 162; sea_state.py 51;
trend_indicator.py 43-44; valid.py 42-45; taf/temperature.py 31-32; taf/change_indicator.py 23-25), and
the fraction, which is cut at the slash first (visibility.py 171-172). -/
def intGroups : List (RE × Cap) :=
  [(MetarRegExp.VISIBILITY, .integer), (MetarRegExp.VISIBILITY, .fraction),
   (MetarRegExp.RUNWAY_STATE, .depth), (MetarRegExp.RUNWAY_STATE, .fric), (MetarRegExp.SEA_STATE, .height),
   (MetarRegExp.TREND_TIME_PERIOD, .hour), (MetarRegExp.TREND_TIME_PERIOD, .min),
   (TafRegExp.VALID, .fmday), (TafRegExp.VALID, .fmhour), (TafRegExp.VALID, .tlday), (TafRegExp.VALID, .tlhour),
   (TafRegExp.VISIBILITY, .integer), (TafRegExp.VISIBILITY, .fraction),
   (TafRegExp.TEMPERATURE, .day), (TafRegExp.TEMPERATURE, .hour),
   (TafRegExp.CHANGE_INDICATOR, .day), (TafRegExp.CHANGE_INDICATOR, .hour), (TafRegExp.CHANGE_INDICATOR, .minute)]

/-- The shape holds characters of the ranges only. -/
def inside (rs : List (Nat × Nat)) (ks : List CC) : Bool := ks.all fun k => subRanges k.ranges rs

theorem inside_sound {rs : List (Nat × Nat)} {ks : List CC} (h : inside rs ks = true) {s : PyStr} (hs : HasShape ks s) :
    ∀ c ∈ s, inRanges rs c = true := by
  induction ks generalizing s with
  | nil => cases hs; simp
  | cons k ks ih =>
    obtain ⟨c, t, rfl, hc, ht⟩ := hs
    simp only [inside, List.all_cons, Bool.and_eq_true] at h
    intro d hd
    rcases List.mem_cons.1 hd with rfl | hd
    · exact subRanges_sound h.1 hc
    · exact ih h.2 ht d hd

theorem inRanges_append {a b : List (Nat × Nat)} {c : Nat} (h : inRanges (a ++ b) c = true) :
    inRanges a c = true ∨ inRanges b c = true := by
  simpa [inRanges] using h

def floatRanges : List (Nat × Nat) :=
  digitRanges ++ [(45, 45), (47, 47), (86, 86), (82, 82), (66, 66), (88, 88), (77, 77)]

/-- Texts without a point. -/
def Pointless (t : PyStr) : Prop := ∀ c ∈ t, isDigit c = true ∨ c ∈ py!"-/VRBXM"

theorem floatGroups_inside : (floatGroups.all fun p => p.1.grpAll p.2 (inside floatRanges)) = true := by
  decide +kernel

theorem intGroups_inside : (intGroups.all fun p => p.1.grpAll p.2 (inside (digitRanges ++ [(47, 47)]))) = true := by
  decide +kernel

/-- C93. What these groups capture, in any match of their patterns with any text whatsoever, is a text
that the model reads as Python does: as it is, and edited in the ways the library does. -/
theorem C93_captured (r : RE) (n : Cap) (s : PyStr) (m : Match) (hm : r.match s = some m) (g : PyStr)
    (hg : m.group n = some g) :
    ((r, n) ∈ floatGroups → PlainFloat g ∧ PlainFloat (g ++ py!"0") ∧ PlainFloat (g ++ py!"00") ∧
      PlainFloat (py!"0" ++ g) ∧ PlainFloat (py!"-" ++ g) ∧ PlainFloat (py!"-" ++ g ++ py!"0")) ∧
    ((r, n) ∈ intGroups → PlainInt g ∧ ∀ p ∈ splitC 47 g, PlainInt p) := by
  constructor
  · intro hr
    obtain ⟨ks, hk, hs⟩ := RE.grpAll_sound (List.all_eq_true.1 floatGroups_inside _ hr) hm hg
    have hp : Pointless g := by
      intro c hc
      rcases inRanges_append (inside_sound hk hs c hc) with h | h
      · exact .inl h
      · right
        simp only [inRanges, List.any_cons, List.any_nil, Bool.or_false, Bool.or_eq_true, Bool.and_eq_true,
          Nat.ble_eq] at h
        rcases h with h | h | h | h | h | h | h <;> (obtain rfl := Nat.le_antisymm h.2 h.1; decide)
    have app : ∀ {a b : PyStr}, Pointless a → Pointless b → Pointless (a ++ b) := by
      intro a b ha hb c hc
      rcases List.mem_append.1 hc with h | h
      · exact ha c h
      · exact hb c h
    have z : Pointless py!"0" := by unfold Pointless; decide +kernel
    have zz : Pointless py!"00" := by unfold Pointless; decide +kernel
    have d : Pointless py!"-" := by unfold Pointless; decide +kernel
    exact ⟨.inl hp, .inl (app hp z), .inl (app hp zz), .inl (app z hp), .inl (app d hp), .inl (app (app d hp) z)⟩
  · intro hr
    obtain ⟨ks, hk, hs⟩ := RE.grpAll_sound (List.all_eq_true.1 intGroups_inside _ hr) hm hg
    have hp : PlainInt g := by
      intro c hc
      rcases inRanges_append (inside_sound hk hs c hc) with h | h
      · exact .inl h
      · right
        simp only [inRanges, List.any_cons, List.any_nil, Bool.or_false, Bool.and_eq_true, Nat.ble_eq] at h
        omega
    refine ⟨hp, fun p hq c hc => hp c ?_⟩
    exact Classical.byContradiction fun hn => not_mem_splitC hn p hq hc

/-- Captured texts of both kinds, and what becomes of them. -/
example : (MetarRegExp.TEMPERATURES.match py!"M07/XX").bind (·.group .temp) = some py!"07" ∧
    (MetarRegExp.TEMPERATURES, Cap.temp) ∈ floatGroups ∧
    temperature (some (py!"-" ++ py!"07")) = .ok (some ⟨-7, false⟩) ∧
    (MetarRegExp.VISIBILITY.match py!"1_1/2SM").bind (·.group .fraction) = some py!"1/2" ∧
    (MetarRegExp.VISIBILITY, Cap.fraction) ∈ intGroups ∧ splitC 47 py!"1/2" = [py!"1", py!"2"] := by
  decide +kernel

theorem ascii_digit {t : PyStr} (h : DigitText t) : ∀ c ∈ t, isDigit c = true := by
  intro c hc
  exact subRanges_sound (a := [(48, 57)]) (b := digitRanges) (by decide +kernel)
    (by simp only [inRanges, List.any_cons, List.any_nil, Bool.or_false, Bool.and_eq_true, Nat.ble_eq]; exact h c hc)

theorem plain_decimal {t w f : PyStr} (s : PyStr) (hs : s = [] ∨ s = [45]) (h : PointText t w f) : PlainFloat (s ++ t) :=
  .inr ⟨s, w, f, hs, by rw [h.text]; simp, h.whole.1, h.decimals.1, ascii_digit h.whole.2, ascii_digit h.decimals.2⟩

/-- C93. Numbers that the library writes with a fixed number of decimals and reads again (pressures and
cloud heights, `f"{x:.10f}"`). -/
theorem C93_fixed (n : Nat) (hn : 0 < n) (x : F64) : PlainFloat (fmtF n x) := by
  obtain ⟨w, f, s, hp, -, h1, h2, -⟩ := fmtF_fixed n hn x
  by_cases h : Negative x
  · rw [h1 h]; exact plain_decimal [45] (.inr rfl) hp
  · rw [h2 h]; exact plain_decimal [] (.inl rfl) hp

/-- C93. Numbers that it writes with `f"{x}"` and reads again: speeds in metres per second, visibilities
in miles, runway ranges in feet and wave heights. None of them needs an exponent. -/
theorem C93_shortest (x : F64) (hd : Double x) (hs : ¬ Negative x)
    (h : x.val = 0 ∨ 1 / 1000 ≤ x.val ∧ x.val < 10 ^ 16) : PlainFloat (floatRepr x) := by
  have hw : Written x := by
    refine ⟨?_, h⟩
    rw [Bool.eq_false_iff]
    intro hc
    exact hs ((sgn_negative _).1 hc)
  obtain ⟨w, f, hp⟩ := repr_decimal hd hw
  exact plain_decimal [] (.inl rfl) ⟨hp.text, ⟨hp.before, hp.digits⟩, hp.lead, ⟨hp.after, hp.digits'⟩⟩

theorem plain_written {q : Rat} (h : q = 0 ∨ 1 / 100 ≤ q ∧ q ≤ 10 ^ 15) : PlainFloat (floatRepr ⟨rnd q, false⟩) := by
  have hw := written_rnd h
  exact C93_shortest _ hw.1 (fun hn => by have := (sgn_negative _).2 hn; rw [hw.2.1] at this; cases this) hw.2.2

/-- C93. The texts of the first, third and fourth of these, for all digits the patterns let through: metres
per second (wind.py 214-224), feet (runway_range.py 79-82), decimetres (sea_state.py 51-52). -/
theorem C93_digits (ds : PyStr) (hn : ds ≠ []) (hl : ds.length ≤ 4) (hd : ∀ c ∈ ds, isDigit c = true) :
    PlainFloat (mps2kt (some ds)) ∧
    (∃ x, floatOf ds = some x ∧ PlainFloat (floatRepr (x.mul Conv.FT_TO_M))) ∧
    (∃ n, intOf ds = some n ∧ PlainFloat (floatRepr (F64.lit (mkRat n 10)))) := by
  have hv : digitsVal ds ≤ 10000 := by
    have := digitsVal_lt ds
    have : 10 ^ ds.length ≤ 10 ^ 4 := Nat.pow_le_pow_right (by omega) hl
    omega
  have h0 : (0 : Rat) ≤ (digitsVal ds : Nat) := Rat.natCast_nonneg
  have hf := floatOf_digits_exact hn hd (by omega)
  refine ⟨?_, ⟨_, hf, ?_⟩, ⟨_, intOf_digits hn hd, ?_⟩⟩
  · unfold mps2kt
    simp only
    rw [hf]
    simp only
    rw [F64.mul_pos_val (F64.sgn_false h0) MPS_TO_KNOT_sgn]
    exact plain_written (written_digits hv (c := Conv.MPS_TO_KNOT.val) (by decide +kernel) (by decide +kernel))
  · rw [F64.mul_pos_val (F64.sgn_false h0) FT_TO_M_sgn]
    exact plain_written (written_digits hv (c := Conv.FT_TO_M.val) (by decide +kernel) (by decide +kernel))
  · have hq : F64.lit (mkRat (digitsVal ds) 10) = ⟨rnd (digitsVal ds * (1 / 10)), false⟩ := by
      rw [Rat.mkRat_eq_div, Rat.intCast_natCast]
      refine (F64.mk'_false _).trans ?_
      rw [Rat.div_def 1, Rat.one_mul, ← Rat.div_def]
      rfl
    rw [hq]
    exact plain_written (written_digits hv (c := 1 / 10) (by decide +kernel) (by decide +kernel))

example : mps2kt (some py!"07") = py!"13.606911564638546" ∧
    floatRepr (F64.lit (mkRat 15 10)) = py!"1.5" ∧ fmtF 10 (F64.lit 1013.25) = py!"1013.2500000000" := by
  decide +kernel

/-- C93. Any visibility in miles from 1/10 to 1000: `f"{miles * 1.852 * 1000}"` (visibility.py 182). -/
theorem C93_miles (x : F64) (hs : ¬ Negative x) (h : x.val = 0 ∨ 1 / 10 ≤ x.val ∧ x.val ≤ 1000) :
    PlainFloat (floatRepr ((x.mul Conv.SMI_TO_KM).mul Conv.KM_TO_M)) := by
  have h0 : 0 ≤ x.val := by grind
  have hz : x.sgn = false := by
    rw [Bool.eq_false_iff]
    intro hc
    exact hs ((sgn_negative _).1 hc)
  have hc : (Conv.SMI_TO_KM).val ≤ 2 ∧ 1 ≤ (Conv.SMI_TO_KM).val := by decide +kernel
  have e1 : 0 ≤ rnd (x.val * Conv.SMI_TO_KM.val) := rnd_nonneg _ (Rat.mul_nonneg h0 (by grind))
  rw [F64.mul_pos_val hz SMI_TO_KM_sgn, KM_TO_M_val, F64.mul_pos_val (F64.sgn_false e1) (F64.sgn_false (by decide))]
  refine plain_written ?_
  rcases h with h | ⟨h1, h2⟩
  · left
    rw [h, Rat.zero_mul, rnd_zero]
    exact Rat.zero_mul _
  · right
    have p1 := Rat.mul_le_mul_of_nonneg_left hc.1 h0
    have p2 := Rat.mul_le_mul_of_nonneg_left hc.2 h0
    have m1 := rnd_mono (p := 1 / 10) (q := x.val * Conv.SMI_TO_KM.val) (by grind)
    have m2 := rnd_mono (p := x.val * Conv.SMI_TO_KM.val) (q := 2000) (by grind)
    have c1 : 1 / 20 ≤ rnd (1 / 10) := by decide +kernel
    have c2 : rnd 2000 ≤ 4000 := by decide +kernel
    have c3 : (4000 * 1000 : Rat) ≤ 10 ^ 15 := by decide +kernel
    show 1 / 100 ≤ rnd (x.val * Conv.SMI_TO_KM.val) * 1000 ∧ rnd (x.val * Conv.SMI_TO_KM.val) * 1000 ≤ 10 ^ 15
    generalize (10 : Rat) ^ 15 = u at *
    grind

example : floatRepr (((F64.lit (3 / 2)).mul Conv.SMI_TO_KM).mul Conv.KM_TO_M) = py!"2778.0" := by decide +kernel

theorem mantissa_digit {t : PyStr} {q : Rat} (h : Mantissa t q) : ∃ c ∈ t, isDigit c = true := by
  have part : ∀ {t : PyStr} {v n : Nat}, DigitPart t v n → ∃ c ∈ t, isDigit c = true := by
    intro t v n h
    cases h with
    | one h => exact ⟨_, by simp, h⟩
    | more _ h => exact ⟨_, by simp, h⟩
    | under _ h => exact ⟨_, by simp, h⟩
  cases h with
  | whole h => exact part h
  | point h => obtain ⟨c, hc, hd⟩ := part h; exact ⟨c, by simp [hc], hd⟩
  | both h _ => obtain ⟨c, hc, hd⟩ := part h; exact ⟨c, by simp [hc], hd⟩
  | frac h => obtain ⟨c, hc, hd⟩ := part h; exact ⟨c, by simp [hc], hd⟩

theorem spaces_nil {l b : PyStr} (hl : ∀ c ∈ l, isSpace c = true) (h : ∀ c ∈ l ++ b, isSpace c = false) : l = [] := by
  cases l with
  | nil => rfl
  | cons c l =>
    have h1 := h c (by simp)
    rw [hl c (by simp)] at h1
    cases h1

/-- C93. A height that is missing is passed on as the text `None` (sea_state.py 51-55), which has no
reading; neither has any other text without digits, white space and sign that is not infinity or nan. -/
theorem C93_word (t : PyStr) (h1 : ∀ c ∈ t, isDigit c = false ∧ isSpace c = false ∧ c ≠ 43 ∧ c ≠ 45)
    (h2 : lower t ≠ py!"inf" ∧ lower t ≠ py!"infinity" ∧ lower t ≠ py!"nan") :
    (∀ v, ¬ FloatText t v) ∧ floatOf t = none := by
  have key : ∀ v, ¬ FloatText t v := by
    rintro v ⟨l, b, r, rfl, hl, hr, hb⟩
    have el : l = [] := spaces_nil (b := b ++ r) hl fun c hc => (h1 c (by simpa using hc)).2.1
    subst el
    have er : r = [] := spaces_nil (b := []) hr fun c hc => (h1 c (by simp at hc; simp [hc])).2.1
    subst er
    simp only [List.nil_append, List.append_nil] at h1 h2
    have sign : ∀ {s : PyStr} {n : Bool}, SignText s n → (∀ c ∈ s, c ∈ b) → s = [] := by
      intro s n hs hm
      cases hs with
      | none => rfl
      | plus => exact absurd rfl (h1 43 (hm _ (by simp))).2.2.1
      | minus => exact absurd rfl (h1 45 (hm _ (by simp))).2.2.2
    cases hb with
    | plain hs hm =>
      obtain ⟨c, hc, hd⟩ := mantissa_digit hm
      rw [(h1 c (by simp [hc])).1] at hd
      cases hd
    | power hs hm _ _ _ =>
      obtain ⟨c, hc, hd⟩ := mantissa_digit hm
      rw [(h1 c (by simp [hc])).1] at hd
      cases hd
    | infinite hs hi =>
      obtain rfl := sign hs (fun c hc => by simp [hc])
      simp only [List.nil_append] at h2
      exact hi.elim h2.1 h2.2.1
    | nan hs hi =>
      obtain rfl := sign hs (fun c hc => by simp [hc])
      simp only [List.nil_append] at h2
      exact h2.2.2 hi
  refine ⟨key, ?_⟩
  cases hf : floatOf t with
  | none => rfl
  | some x =>
    obtain ⟨_, _, ht, _⟩ := text_of_floatOf hf
    exact absurd ht (key _)

example : (∀ c ∈ py!"None", isDigit c = false ∧ isSpace c = false ∧ c ≠ 43 ∧ c ≠ 45) ∧
    lower py!"None" ≠ py!"inf" ∧ lower py!"None" ≠ py!"infinity" ∧ lower py!"None" ≠ py!"nan" ∧
    distance (some py!"None") = none := by decide +kernel

end Verif.Props
