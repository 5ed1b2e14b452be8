import Verif.Lemmas.Apart
import Verif.Lemmas.Sanitize
import Verif.Spec.Sections
import Verif.Spec.Sanitize

/-
What the texts of the groups have in common: they are words without white space, `=` and `|`, they
open no section, and they are no part of a group written in two words.
-/

namespace Verif

open Spec

/-- A text of the shape is a word without a bar. -/
def wordShape (ks : List CC) : Bool :=
  ks.all fun k => CC.test k .space == some false && (!k.mem 61 && !k.mem 124)

theorem wordShape_sound {ks : List CC} (h : wordShape ks = true) {s : PyStr} (hs : HasShape ks s) :
    ∀ c ∈ s, isSpace c = false ∧ c ≠ 61 ∧ c ≠ 124 := by
  induction ks generalizing s with
  | nil => cases hs; simp
  | cons k ks ih =>
    obtain ⟨c, t, rfl, hc, ht⟩ := hs
    simp only [wordShape, List.all_cons, Bool.and_eq_true, beq_iff_eq, Bool.not_eq_true'] at h
    intro d hd
    rcases List.mem_cons.1 hd with rfl | hd
    · refine ⟨CC.test_sound h.1.1 hc, ?_, ?_⟩
      · rintro rfl; rw [h.1.2.1] at hc; cases hc
      · rintro rfl; rw [h.1.2.2] at hc; cases hc
    · exact ih h.2 ht d hd

/-- No text of the shape ends with the two characters. -/
def noEnd (a b : Nat) : List CC → Bool
  | [] => true
  | [_] => true
  | [x, y] => !x.mem a || !y.mem b
  | _ :: y :: z :: ks => noEnd a b (y :: z :: ks)

theorem noEnd_sound {a b : Nat} {ks : List CC} (h : noEnd a b ks = true) {s : PyStr} (hs : HasShape ks s) :
    ¬ [a, b] <:+ s := by
  induction ks generalizing s with
  | nil =>
    cases hs
    intro h; have := h.length_le; simp at this
  | cons x ks ih =>
    obtain ⟨c, t, rfl, hc, ht⟩ := hs
    cases ks with
    | nil =>
      cases ht
      intro h; have := h.length_le; simp at this
    | cons y ks =>
      cases ks with
      | nil =>
        obtain ⟨d, u, rfl, hd, hu⟩ := ht
        cases hu
        rintro ⟨p, hp⟩
        have hl := congrArg List.length hp
        cases p with
        | cons _ _ => simp at hl
        | nil =>
          simp only [List.nil_append, List.cons.injEq, and_true] at hp
          obtain ⟨rfl, rfl⟩ := hp
          simp only [noEnd, Bool.or_eq_true, Bool.not_eq_true'] at h
          rcases h with h | h
          · rw [h] at hc; cases hc
          · rw [h] at hd; cases hd
      | cons z ks =>
        simp only [noEnd] at h
        rintro ⟨p, hp⟩
        cases p with
        | nil =>
          obtain ⟨d, u, rfl, hd, e, v, rfl, -, -⟩ := ht
          simp at hp
        | cons q p =>
          simp only [List.cons_append, List.cons.injEq] at hp
          exact ih h ht ⟨p, hp.2⟩

/-- No text of the shape consists of digits. -/
def noDigits (ks : List CC) : Bool := ks.any fun k => CC.test k .digit == some false

theorem noDigits_sound {ks : List CC} (h : noDigits ks = true) {s : PyStr} (hs : HasShape ks s) :
    s.all isDigit = false := by
  induction ks generalizing s with
  | nil => cases h
  | cons k ks ih =>
    obtain ⟨c, t, rfl, hc, ht⟩ := hs
    simp only [noDigits, List.any_cons, Bool.or_eq_true, beq_iff_eq] at h
    rw [List.all_cons, Bool.and_eq_false_iff]
    rcases h with h | h
    · left; exact CC.test_sound h hc
    · right; exact ih h ht

/-- No text of the shape begins with a fraction of miles. -/
def noMiles : List CC → Bool
  | a :: b :: c :: d :: e :: _ =>
    CC.test a .digit == some false || (!b.mem 47 || (CC.test c .digit == some false || (!d.mem 83 || !e.mem 77)))
  | _ => true

/-- A word that begins with a fraction of miles. -/
def Miles (v : PyStr) : Prop :=
  ∃ x y t, v = x :: py!"/" ++ y :: py!"SM" ++ t ∧ isDigit x = true ∧ isDigit y = true

theorem noMiles_sound {ks : List CC} (h : noMiles ks = true) {s : PyStr} (hs : HasShape ks s) :
    ¬ Miles s := by
  rintro ⟨x, y, t, rfl, hx, hy⟩
  obtain _ | ⟨a, _ | ⟨b, _ | ⟨c, _ | ⟨d, _ | ⟨e, ks⟩⟩⟩⟩⟩ := ks
  · cases hs
  · obtain ⟨_, _, e1, -, e2⟩ := hs
    cases e1; cases e2
  · obtain ⟨_, _, e1, -, _, _, e2, -, e3⟩ := hs
    cases e1; cases e2; cases e3
  · obtain ⟨_, _, e1, -, _, _, e2, -, _, _, e3, -, e4⟩ := hs
    cases e1; cases e2; cases e3; cases e4
  · obtain ⟨_, _, e1, -, _, _, e2, -, _, _, e3, -, _, _, e4, -, e5⟩ := hs
    cases e1; cases e2; cases e3; cases e4; cases e5
  · obtain ⟨_, _, e1, h1, _, _, e2, h2, _, _, e3, h3, _, _, e4, h4, _, _, e5, h5, -⟩ := hs
    cases e1; cases e2; cases e3; cases e4; cases e5
    simp only [noMiles, Bool.or_eq_true, beq_iff_eq, Bool.not_eq_true'] at h
    rcases h with h | h | h | h | h
    · have : isDigit x = false := CC.test_sound h h1
      rw [this] at hx; cases hx
    · rw [h] at h2; cases h2
    · have : isDigit y = false := CC.test_sound h h3
      rw [this] at hy; cases hy
    · rw [h] at h4; cases h4
    · rw [h] at h5; cases h5

/-- All shapes of the texts the pattern matches pass the test. -/
def RE.everyShape (r : RE) (f : List CC → Bool) : Bool := r.closed && r.paths0.all fun x => f (pathCls x.1)

theorem RE.everyShape_sound {r : RE} {f : List CC → Bool} (h : r.everyShape f = true) {s : PyStr} {m : Match}
    (hm : r.match s = some m) (hn : 10 ∉ s) : ∃ ks, f ks = true ∧ HasShape ks s := by
  simp only [RE.everyShape, Bool.and_eq_true] at h
  obtain ⟨x, hx, -, -, hs, -, -⟩ := RE.match_whole h.1 hm hn
  exact ⟨_, List.all_eq_true.1 h.2 x hx, hs⟩

/-- The opening words of all reports. -/
def openingWords : List PyStr := metarWords ++ tafWords

/-- The text is a word that opens no section and does not end with WS. -/
structure Quiet (s : PyStr) : Prop where
  chars : ∀ c ∈ s, isSpace c = false ∧ c ≠ 61 ∧ c ≠ 124
  opens : ∀ kw ∈ openingWords, ¬ kw <+: s
  noShear : ¬ py!"WS" <:+ s

def quietShape (ks : List CC) : Bool :=
  wordShape ks && (openingWords.all (fun kw => notPrefix kw ks) && noEnd 87 83 ks)

theorem quietShape_sound {ks : List CC} (h : quietShape ks = true) {s : PyStr} (hs : HasShape ks s) :
    Quiet s := by
  simp only [quietShape, Bool.and_eq_true] at h
  refine ⟨wordShape_sound h.1 hs, ?_, noEnd_sound h.2.2 hs⟩
  rintro kw hk ⟨t, rfl⟩
  exact notPrefix_sound (List.all_eq_true.1 h.2.1 kw hk) hs

open MetarRegExp

/-- The patterns of the groups of a METAR body and the valid period, other than the station, the recent
weather and the wind shear. -/
def quietPatterns : List RE :=
  [TYPE, TIME, MODIFIER, WIND, WIND_VARIATION, VISIBILITY, MINIMUM_VISIBILITY, RUNWAY_RANGE, WEATHER,
   CLOUD, TEMPERATURES, PRESSURE, SEA_STATE, RUNWAY_STATE, TafRegExp.VALID]

set_option maxRecDepth 100000 in
theorem quietPatterns_ok : quietPatterns.all (fun r => r.everyShape quietShape) = true := by
  decide +kernel

theorem quiet_of_match {r : RE} (hr : r ∈ quietPatterns) {s : PyStr} {m : Match}
    (hm : r.match s = some m) (hn : 10 ∉ s) : Quiet s := by
  obtain ⟨ks, hk, hs⟩ := RE.everyShape_sound (List.all_eq_true.1 quietPatterns_ok r hr) hm hn
  exact quietShape_sound hk hs

theorem noDigits_ok : ([TYPE, TIME, MODIFIER, WIND, WIND_VARIATION].all fun r => r.everyShape noDigits) = true := by
  decide +kernel

theorem noDigits_of_match {r : RE} (hr : r ∈ [TYPE, TIME, MODIFIER, WIND, WIND_VARIATION]) {s : PyStr}
    {m : Match} (hm : r.match s = some m) (hn : 10 ∉ s) : s.all isDigit = false := by
  obtain ⟨ks, hk, hs⟩ := RE.everyShape_sound (List.all_eq_true.1 noDigits_ok r hr) hm hn
  exact noDigits_sound hk hs

def milelessPatterns : List RE :=
  [MINIMUM_VISIBILITY, RUNWAY_RANGE, WEATHER, CLOUD, TEMPERATURES, PRESSURE, SEA_STATE, RUNWAY_STATE]

set_option maxRecDepth 100000 in
theorem noMiles_ok : (milelessPatterns.all fun r => r.everyShape noMiles) = true := by
  decide +kernel

theorem noMiles_of_match {r : RE} (hr : r ∈ milelessPatterns) {s : PyStr}
    {m : Match} (hm : r.match s = some m) (hn : 10 ∉ s) : ¬ Miles s := by
  obtain ⟨ks, hk, hs⟩ := RE.everyShape_sound (List.all_eq_true.1 noMiles_ok r hr) hm hn
  exact noMiles_sound hk hs

end Verif
