import Verif.Lemmas.MetarApart
import Verif.Spec.TafRecord
import Verif.Lemmas.VisForms

/-
The groups of a TAF are words that open no change, and they are not taken for groups that come
earlier in the report.
-/

namespace Verif
open Spec MetarRegExp

/-! ### Ends of words -/

theorem HasShape.reverse {ks : List CC} {s : PyStr} (h : HasShape ks s) : HasShape ks.reverse s.reverse := by
  induction ks generalizing s with
  | nil => cases h; exact HasShape.nil
  | cons k ks ih =>
    obtain ⟨c, t, rfl, hc, ht⟩ := h
    rw [List.reverse_cons, List.reverse_cons]
    exact (ih ht).append (.cons hc .nil)

/-- No text of the shape ends with the word. -/
def noTail (w : PyStr) (ks : List CC) : Bool := notPrefix w.reverse ks.reverse

theorem noTail_sound {w : PyStr} {ks : List CC} (h : noTail w ks = true) {s : PyStr} (hs : HasShape ks s) :
    ¬ w <:+ s := by
  rintro ⟨t, rfl⟩
  have := hs.reverse
  rw [List.reverse_append] at this
  exact notPrefix_sound h this

/-- The ends of words that matter in a TAF. -/
def tafEnds : List PyStr := [py!"TAF", py!"PROB30", py!"PROB40"]

def tailShape (ks : List CC) : Bool := tafEnds.all fun w => noTail w ks

theorem tailShape_sound {ks : List CC} (h : tailShape ks = true) {s : PyStr} (hs : HasShape ks s) :
    ∀ w ∈ tafEnds, ¬ w <:+ s :=
  fun w hw => noTail_sound (List.all_eq_true.1 h w hw) hs

def noUnder (ks : List CC) : Bool := ks.all fun k => !k.mem 95

theorem noUnder_sound {ks : List CC} (h : noUnder ks = true) {s : PyStr} (hs : HasShape ks s) : 95 ∉ s := by
  induction ks generalizing s with
  | nil => cases hs; simp
  | cons k ks ih =>
    obtain ⟨c, t, rfl, hc, ht⟩ := hs
    simp only [noUnder, List.all_cons, Bool.and_eq_true, Bool.not_eq_true'] at h
    intro h'
    rcases List.mem_cons.1 h' with rfl | h'
    · rw [h.1] at hc; cases hc
    · exact ih h.2 ht h'

/-- A word of a TAF that opens no change. -/
structure Calm (w : PyStr) : Prop where
  unbarred : Unbarred w
  metar : ¬ Opens metarWords w
  taf : ¬ Opens tafWords w
  under : 95 ∉ w
  ends : ∀ e ∈ tafEnds, ¬ e <:+ w

theorem Calm.noProb {w : PyStr} (h : Calm w) (v : PyStr) : isProb w v = false := by
  rw [Bool.eq_false_iff]
  intro hp
  simp only [isProb, Bool.and_eq_true, Bool.or_eq_true, List.isSuffixOf_iff_suffix] at hp
  rcases hp.1 with h1 | h1
  · exact h.ends _ (by simp [tafEnds]) h1
  · exact h.ends _ (by simp [tafEnds]) h1

theorem Quiet.calm {s : PyStr} (h : Quiet s) (hne : s ≠ []) (h1 : 95 ∉ s) (h2 : ∀ e ∈ tafEnds, ¬ e <:+ s) :
    Calm s := by
  refine ⟨⟨⟨hne, fun c hc => ⟨(h.chars c hc).1, (h.chars c hc).2.1⟩⟩, fun h' => (h.chars 124 h').2.2 rfl⟩,
    ?_, ?_, h1, h2⟩
  · rintro ⟨kw, hk, hp⟩
    exact h.opens kw (List.mem_append_left _ hk) hp
  · rintro ⟨kw, hk, hp⟩
    exact h.opens kw (List.mem_append_right _ hk) hp

def calmShape (ks : List CC) : Bool := quietShape ks && (noUnder ks && tailShape ks)

/-- The patterns whose texts are calm. -/
def calmPatterns : List RE :=
  [TIME, TafRegExp.AMD_COR, TafRegExp.NIL, TafRegExp.VALID, TafRegExp.CANCELLED, WIND, WEATHER, CLOUD]

set_option maxRecDepth 100000 in
theorem calmPatterns_ok : calmPatterns.all (fun r => r.everyShape calmShape) = true := by
  decide +kernel

theorem Fact.calm {re : RE} {s : PyStr} (h : Fact re s) (hr : re ∈ calmPatterns) (hne : s ≠ []) : Calm s := by
  obtain ⟨⟨m, hm⟩, hn⟩ := h
  obtain ⟨ks, hk, hs⟩ := RE.everyShape_sound (List.all_eq_true.1 calmPatterns_ok re hr) hm hn
  simp only [calmShape, Bool.and_eq_true] at hk
  exact (quietShape_sound hk.1 hs).calm hne (noUnder_sound hk.2.1 hs) (tailShape_sound hk.2.2 hs)

set_option maxRecDepth 100000 in
theorem vis_tails : VISIBILITY.everyShape tailShape = true := by decide +kernel

theorem vis_ends {v : VisGroup} (h : v.WF) : ∀ e ∈ tafEnds, ¬ e <:+ v.text := by
  obtain ⟨⟨m, hm⟩, hn⟩ := vis_fact h
  obtain ⟨ks, hk, hs⟩ := RE.everyShape_sound vis_tails hm hn
  exact tailShape_sound hk hs

def tafDigitless : List RE :=
  [TIME, TafRegExp.AMD_COR, TafRegExp.NIL, TafRegExp.VALID, TafRegExp.CANCELLED, WIND]

theorem tafDigitless_ok : (tafDigitless.all fun r => r.everyShape noDigits) = true := by
  decide +kernel

theorem Fact.noDigits' {re : RE} {s : PyStr} (h : Fact re s) (hr : re ∈ tafDigitless) : s.all isDigit = false := by
  obtain ⟨⟨m, hm⟩, hn⟩ := h
  obtain ⟨ks, hk, hs⟩ := RE.everyShape_sound (List.all_eq_true.1 tafDigitless_ok re hr) hm hn
  exact noDigits_sound hk hs

/-! ### The groups are matched -/

theorem amd_fact {m : PyStr} (h : m = py!"AMD" ∨ m = py!"COR") : Fact TafRegExp.AMD_COR m := by
  rcases h with rfl | rfl
  · exact ⟨Option.isSome_iff_exists.1 (by decide +kernel), by decide⟩
  · exact ⟨Option.isSome_iff_exists.1 (by decide +kernel), by decide⟩

theorem nil_fact : Fact TafRegExp.NIL py!"NIL" :=
  ⟨Option.isSome_iff_exists.1 (by decide +kernel), by decide⟩

theorem cnl_fact : Fact TafRegExp.CANCELLED py!"CNL" :=
  ⟨Option.isSome_iff_exists.1 (by decide +kernel), by decide⟩

theorem hour_noNl {top : Nat} {s : PyStr} (h : HourDigits top s) : 10 ∉ s := by
  obtain ⟨a, b, rfl, ha, hb, -⟩ := h
  have := digit_ne10 hb
  have : (10 : Nat) ≠ a := by rintro rfl; obtain ⟨h, -⟩ := ha; omega
  simp [*]

theorem valid_noNl {w : ValidGroup} (h : w.WF) : 10 ∉ w.text := by
  obtain ⟨-, h1, -, h2⟩ := h
  simp [ValidGroup.text, padNat_noNl, hour_noNl h1, hour_noNl h2]

theorem valid_fact {w : ValidGroup} (h : w.WF) : Fact TafRegExp.VALID w.text := by
  obtain ⟨m, hm, -⟩ := valid_match w h
  exact ⟨⟨m, hm⟩, valid_noNl h⟩

theorem tafWind_fact {w : WindGroup} (h : w.WF) (hf : w.Forecast) : Fact TafRegExp.WIND w.text :=
  tafWind_reads.fact (G := tafWindGrammar) ⟨h, hf⟩ (wind_noNl h)

theorem tafTemp_noNl {w : TafTempGroup} (h : w.WF) : 10 ∉ w.text := by
  obtain ⟨-, h2, -, h4⟩ := h
  simp only [TafTempGroup.text, List.mem_append, not_or]
  refine ⟨⟨⟨⟨⟨⟨⟨by decide, ?_⟩, ?_⟩, digits_noNl h2⟩, by decide⟩, padNat_noNl _ _⟩, hour_noNl h4⟩, by decide⟩
  · split <;> decide
  · split <;> decide

theorem tafTemp_fact {w : TafTempGroup} (h : w.WF) : Fact TafRegExp.TEMPERATURE w.text := by
  obtain ⟨m, hm, -⟩ := tafTemp_match w h
  exact ⟨⟨m, hm⟩, tafTemp_noNl h⟩

theorem tafVis_fact {w : VisGroup} (h : tafVisGrammar.WF w) : Fact TafRegExp.VISIBILITY w.text := by
  obtain ⟨m, hm, -⟩ := tafVis_match w h.1 h.2
  exact ⟨⟨m, hm⟩, vis_noNl h.1⟩

/-! ### Temperatures -/

/-- `TX` or `TN` and the rest. -/
theorem tafTemp_opening (w : TafTempGroup) :
    ∃ t, w.text = (if w.max then py!"TX" else py!"TN") ++ t := by
  refine ⟨(if w.minus then py!"M" else []) ++ w.digits ++ py!"/" ++ padNat 2 w.day ++ w.hour ++ py!"Z", ?_⟩
  simp only [TafTempGroup.text]
  split <;> simp

theorem hour_digits {top : Nat} {s : PyStr} (h : HourDigits top s) : ∀ c ∈ s, isDigit c = true := by
  obtain ⟨a, b, rfl, ha, hb, -⟩ := h
  intro c hc
  simp only [List.mem_cons, List.not_mem_nil, or_false] at hc
  rcases hc with rfl | rfl
  · exact AsciiDigit.isDigit ha
  · exact hb

/-- A character of a word that is no underscore. -/
def calmChar (c : Nat) : Bool := !isSpace c && (c != 61 && (c != 124 && c != 95))

theorem calmChar_digit {c : Nat} (h : isDigit c = true) : calmChar c = true := by
  have h1 : isSpace c = false := CC.test_sound (k := .digit) (cc := .space) (by decide +kernel) h
  unfold calmChar
  rw [h1]
  have : ∀ x : Nat, isDigit x = false → c ≠ x := by rintro x hx rfl; rw [h] at hx; cases hx
  simp [this 61 (by decide +kernel), this 124 (by decide +kernel), this 95 (by decide +kernel)]

theorem calm_chars {s : PyStr} (h : ∀ c ∈ s, calmChar c = true) (hne : s ≠ []) : Unbarred s ∧ 95 ∉ s := by
  have key : ∀ c ∈ s, isSpace c = false ∧ c ≠ 61 ∧ c ≠ 124 ∧ c ≠ 95 := by
    intro c hc
    have := h c hc
    simp only [calmChar, Bool.and_eq_true, Bool.not_eq_true', bne_iff_ne, ne_eq] at this
    exact this
  exact ⟨⟨⟨hne, fun c hc => ⟨(key c hc).1, (key c hc).2.1⟩⟩, fun hc => (key _ hc).2.2.1 rfl⟩,
    fun hc => (key _ hc).2.2.2 rfl⟩

theorem noEnds_of_last {s : PyStr} {c : Nat} (h : s.getLast? = some c) (h1 : c ≠ 70) (h2 : c ≠ 48) :
    ∀ e ∈ tafEnds, ¬ e <:+ s := by
  rintro e he ⟨p, rfl⟩
  simp only [tafEnds, List.mem_cons, List.not_mem_nil, or_false] at he
  rcases he with rfl | rfl | rfl <;> simp at h <;> simp_all

theorem tafTemp_calm {w : TafTempGroup} (h : w.WF) : Calm w.text := by
  obtain ⟨t, ht⟩ := tafTemp_opening w
  have hne : w.text ≠ [] := by rw [ht]; split <;> simp
  have hc : ∀ c ∈ w.text, calmChar c = true := by
    obtain ⟨-, h2, -, h4⟩ := h
    intro c hc
    simp only [TafTempGroup.text, List.mem_append] at hc
    rcases hc with ((((((hc | hc) | hc) | hc) | hc) | hc) | hc) | hc
    · rw [List.mem_singleton.1 hc]; decide
    · split at hc <;> (rw [List.mem_singleton.1 hc]; decide)
    · split at hc
      · rw [List.mem_singleton.1 hc]; decide
      · simp at hc
    · exact calmChar_digit (h2 c hc)
    · rw [List.mem_singleton.1 hc]; decide
    · exact calmChar_digit (padNat_digits _ _ c hc)
    · exact calmChar_digit (hour_digits h4 c hc)
    · rw [List.mem_singleton.1 hc]; decide
  obtain ⟨h1, h2⟩ := calm_chars hc hne
  have hop : ∀ kw ∈ openingWords, ¬ kw <+: w.text := by
    rintro kw hk ⟨u, hu⟩
    rw [ht] at hu
    have key : ∀ kw ∈ openingWords, 2 ≤ kw.length ∧ kw.take 2 ≠ py!"TX" ∧ kw.take 2 ≠ py!"TN" := by decide
    obtain ⟨k1, k2, k3⟩ := key kw hk
    have := congrArg (List.take 2) hu
    rw [List.take_append_of_le_length k1] at this
    cases hm : w.max <;> rw [hm] at this
    · exact k3 this
    · exact k2 this
  refine ⟨h1, ?_, ?_, h2, noEnds_of_last (c := 90) ?_ (by decide) (by decide)⟩
  · rintro ⟨kw, hk, hp⟩; exact hop kw (List.mem_append_left _ hk) hp
  · rintro ⟨kw, hk, hp⟩; exact hop kw (List.mem_append_right _ hk) hp
  · rw [TafTempGroup.text, List.getLast?_append]; rfl

theorem tafTemp_noMiles (w : TafTempGroup) : ¬ Miles w.text := by
  rintro ⟨x, y, t, e, hx, -⟩
  obtain ⟨u, hu⟩ := tafTemp_opening w
  rw [hu] at e
  have hT : isDigit 84 = false := by decide +kernel
  cases hm : w.max <;> rw [hm] at e <;> simp at e <;> (rw [← e.1, hT] at hx; cases hx)

/-! ### The visibility of a TAF -/

/-- No text of the first shape begins with one of the second. -/
def disjPre : List CC → List CC → Bool
  | _, [] => false
  | [], _ :: _ => true
  | k :: ks, q :: qs => CC.test k q == some false || disjPre ks qs

theorem disjPre_sound {ks qs : List CC} (h : disjPre ks qs = true) {t r : PyStr} (hs : HasShape ks (t ++ r))
    (ht : HasShape qs t) : False := by
  induction ks generalizing qs t with
  | nil =>
    cases qs with
    | nil => cases h
    | cons q qs =>
      obtain ⟨c, u, rfl, -, -⟩ := ht
      cases hs
  | cons k ks ih =>
    cases qs with
    | nil => cases h
    | cons q qs =>
      obtain ⟨c, u, rfl, hc, hu⟩ := ht
      obtain ⟨c', v, e, hc', hv⟩ := hs
      simp only [List.cons_append, List.cons.injEq] at e
      obtain ⟨rfl, rfl⟩ := e
      simp only [disjPre, Bool.or_eq_true, beq_iff_eq] at h
      rcases h with h | h
      · have := CC.test_sound h hc'
        rw [hc] at this; cases this
      · exact ih h hv hu

/-- The first two characters of a visibility group of a TAF. -/
def tafVisStarts : List (List CC) := (tafVisForms.map fun f => f.1.flatten.take 2).eraseDups

set_option maxRecDepth 100000 in
theorem tafVisStarts_ok : (tafVisForms.all fun f => tafVisStarts.any fun p => p == f.1.flatten.take 2) = true := by
  decide +kernel

theorem tafVis_none {ks : List CC} (h : tafVisStarts.all (disjPre ks) = true) {s : PyStr} (hs : HasShape ks s) :
    TafRegExp.VISIBILITY.match s = none := by
  cases hm : TafRegExp.VISIBILITY.match s with
  | none => rfl
  | some m =>
    exfalso
    obtain ⟨f, hf, ts, rest, h1, rfl, -⟩ := RE.begins_only tafVis_begins hm
    have h2 := h1.flatten.take 2
    obtain ⟨p, hp, e⟩ := List.any_eq_true.1 (List.all_eq_true.1 tafVisStarts_ok f hf)
    rw [beq_iff_eq] at e
    subst e
    refine disjPre_sound (List.all_eq_true.1 h _ hp) (t := ts.flatten.take 2) (r := ts.flatten.drop 2 ++ rest) ?_ h2
    rw [← List.append_assoc, List.take_append_drop]
    exact hs

def startsOne (c : Nat) : List CC → Bool
  | [] => false
  | k :: _ => CC.test k (CC.one c) == some true

theorem startsOne_sound {c : Nat} {ks : List CC} (h : startsOne c ks = true) {s : PyStr} (hs : HasShape ks s) :
    s.head? = some c := by
  cases ks with
  | nil => cases h
  | cons k ks =>
    obtain ⟨d, t, rfl, hd, -⟩ := hs
    simp only [startsOne, beq_iff_eq] at h
    have := CC.test_sound h hd
    rw [CC.mem_one.1 this]; rfl

set_option maxRecDepth 100000 in
theorem weather_starts : WEATHER.everyShape
    (fun ks => startsOne 77 ks || (startsOne 85 ks || tafVisStarts.all (disjPre ks))) = true := by
  decide +kernel

/-- A weather group is taken for a visibility only if it begins with M or U. -/
theorem weather_tafVis (w : WeatherGroup) (h1 : w.text.head? ≠ some 77) (h2 : w.text.head? ≠ some 85) :
    TafRegExp.VISIBILITY.match w.text = none := by
  obtain ⟨⟨m, hm⟩, hn⟩ := weather_fact w
  obtain ⟨ks, hk, hs⟩ := RE.everyShape_sound weather_starts hm hn
  simp only [Bool.or_eq_true] at hk
  rcases hk with h | h | h
  · exact absurd (startsOne_sound h hs) h1
  · exact absurd (startsOne_sound h hs) h2
  · exact tafVis_none h hs

set_option maxRecDepth 100000 in
theorem layer_starts : CLOUD.everyShape (fun ks => tafVisStarts.all (disjPre ks)) = true := by
  decide +kernel

theorem layer_tafVis {w : Layer} (h : w.WF) : TafRegExp.VISIBILITY.match w.text = none := by
  obtain ⟨⟨m, hm⟩, hn⟩ := layer_fact h
  obtain ⟨ks, hk, hs⟩ := RE.everyShape_sound layer_starts hm hn
  exact tafVis_none hk hs

/-! ### Foreign patterns -/

/-- The patterns of the groups of a TAF body. -/
def tafPatterns : List RE :=
  [TYPE, TafRegExp.AMD_COR, STATION, TIME, TafRegExp.NIL, TafRegExp.VALID, TafRegExp.CANCELLED, TafRegExp.WIND,
   TafRegExp.VISIBILITY, WEATHER, WEATHER, WEATHER, CLOUD, CLOUD, CLOUD, CLOUD, TafRegExp.TEMPERATURE,
   TafRegExp.TEMPERATURE, TafRegExp.TEMPERATURE, TafRegExp.TEMPERATURE]

theorem tafPatterns_eq (db : Database) (now : Now) (a : Args) :
    (Taf.handlers db now a).map Handler.regexp = tafPatterns := rfl

/-- The patterns of the groups of a change. -/
def changePatterns : List RE :=
  [TafRegExp.CHANGE_INDICATOR, TafRegExp.VALID, TafRegExp.WIND, VISIBILITY, WEATHER, WEATHER, WEATHER, CLOUD, CLOUD,
   CLOUD, CLOUD]

theorem changePatterns_eq : ChangeForecasted.handlers.map Handler.regexp = changePatterns := rfl

/-- The patterns that come before the conditions. -/
def tafFirst : List RE := [TafRegExp.NIL, TafRegExp.VALID, TafRegExp.CANCELLED]

theorem station_amd {s : PyStr} (h : StationCode s) : Foreign [TafRegExp.AMD_COR] s := by
  intro q hq
  rw [List.mem_singleton.1 hq]
  cases hm : TafRegExp.AMD_COR.match s with
  | none => rfl
  | some m =>
    exfalso
    have key : TafRegExp.AMD_COR.everyShape (fun ks => ks.length == 3) = true := by decide +kernel
    obtain ⟨ks, hk, hs⟩ := RE.everyShape_sound key hm (station_noNl h)
    have h1 := hs.length
    have h2 := h.1
    rw [beq_iff_eq] at hk
    omega

theorem valid_foreign {w : ValidGroup} (h : w.WF) : Foreign [TafRegExp.NIL] w.text :=
  (valid_fact h).foreign (by decide +kernel)

theorem cnl_foreign : Foreign [TafRegExp.NIL, TafRegExp.VALID] py!"CNL" :=
  cnl_fact.foreign (by decide +kernel)

theorem tafWind_foreign {w : WindGroup} (h : w.WF) : Foreign tafFirst w.text :=
  (wind_fact h).foreign (by decide +kernel)

set_option maxRecDepth 100000 in
theorem vis_foreign' {w : VisGroup} (h : w.WF) : Foreign (tafFirst ++ [TafRegExp.WIND]) w.text :=
  (vis_fact h).foreign (by decide +kernel)

set_option maxRecDepth 100000 in
theorem weather_foreign' (w : WeatherGroup) : Foreign (tafFirst ++ [TafRegExp.WIND, VISIBILITY]) w.text := by
  obtain ⟨⟨m, hm⟩, hn⟩ := weather_fact w
  exact RE.apart_all' (by decide +kernel) hm hn

set_option maxRecDepth 100000 in
theorem layer_foreign' {w : Layer} (h : w.WF) :
    Foreign (tafFirst ++ [TafRegExp.WIND, VISIBILITY, WEATHER]) w.text :=
  (layer_fact h).foreign (by decide +kernel)

theorem Foreign.cons {q : RE} {qs : List RE} {s : PyStr} (h1 : q.match s = none) (h2 : Foreign qs s) :
    Foreign (q :: qs) s := by
  intro p hp
  rcases List.mem_cons.1 hp with rfl | hp
  · exact h1
  · exact h2 p hp

set_option maxRecDepth 100000 in
theorem tafTemp_foreign {w : TafTempGroup} (h : w.WF) :
    Foreign (TafRegExp.VISIBILITY :: (tafFirst ++ [TafRegExp.WIND, WEATHER, CLOUD])) w.text := by
  refine Foreign.cons ?_ ?_
  · obtain ⟨t, ht⟩ := tafTemp_opening w
    cases hm : TafRegExp.VISIBILITY.match w.text with
    | none => rfl
    | some m =>
      exfalso
      obtain ⟨f, hf, ts, rest, h1, e, -⟩ := RE.begins_only tafVis_begins hm
      have key : (tafVisForms.all fun f => match f.1.flatten with
          | [] => false
          | k :: _ => !k.mem 84) = true := by decide +kernel
      have h2 := List.all_eq_true.1 key f hf
      have h3 := h1.flatten
      cases hk : f.1.flatten with
      | nil => rw [hk] at h2; cases h2
      | cons k ks =>
        rw [hk] at h2 h3
        obtain ⟨c, u, e2, hc, -⟩ := h3
        rw [e2, ht] at e
        have : c = 84 := by
          cases hx : w.max <;> rw [hx] at e <;> simp at e <;> exact e.1.symm
        subst this
        simp only [Bool.not_eq_true'] at h2
        rw [h2] at hc; cases hc
  · have key : ((tafFirst ++ [TafRegExp.WIND, WEATHER, CLOUD]).all fun q =>
        q.noPrefix py!"TX" && q.noPrefix py!"TN") = true := by decide +kernel
    obtain ⟨t, ht⟩ := tafTemp_opening w
    have hn := tafTemp_noNl h
    intro q hq
    have := List.all_eq_true.1 key q hq
    rw [Bool.and_eq_true] at this
    rw [ht] at hn ⊢
    cases hx : w.max <;> rw [hx] at hn
    · exact RE.noPrefix_sound this.2 hn
    · exact RE.noPrefix_sound this.1 hn

/-! ### The openings of changes -/

/-- The opening as one word. -/
def Spec.ChangeKind.group : ChangeKind → PyStr
  | .prob forty true => (if forty then py!"PROB40" else py!"PROB30") ++ py!"_TEMPO"
  | k => k.text

theorem fm_noNl {g : FmGroup} (h : g.WF) : 10 ∉ g.text := by
  obtain ⟨-, h1, a, b, e, ha, hb, -⟩ := h
  have := digit_ne10 hb
  have : (10 : Nat) ≠ a := by rintro rfl; obtain ⟨h, -⟩ := ha; omega
  simp [FmGroup.text, padNat_noNl, hour_noNl h1, e, *]

theorem kind_fact {k : ChangeKind} (h : ∀ g, k = .fm g → g.WF) : Fact TafRegExp.CHANGE_INDICATOR k.group := by
  cases k with
  | tempo => exact ⟨Option.isSome_iff_exists.1 (by decide +kernel), by decide⟩
  | becmg => exact ⟨Option.isSome_iff_exists.1 (by decide +kernel), by decide⟩
  | prob f t =>
    cases f <;> cases t <;> exact ⟨Option.isSome_iff_exists.1 (by decide +kernel), by decide⟩
  | fm g =>
    have hg := h g rfl
    obtain ⟨m, hm, -⟩ := fm_match g hg
    exact ⟨⟨m, hm⟩, fm_noNl hg⟩

end Verif
