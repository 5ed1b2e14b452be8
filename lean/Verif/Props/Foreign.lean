import Verif.Lemmas.Foreign
import Verif.Lemmas.Visibility
import Verif.Props.Report
import Verif.Props.Exceptions

/-
C98: characters that are in no group, and text after a group.
-/

namespace Verif.Props
open Spec

/-- The patterns of the handlers that are closed by `$` in all their alternatives. -/
def closedPatterns : List RE :=
  [MetarRegExp.TYPE, MetarRegExp.STATION, MetarRegExp.TIME, MetarRegExp.MODIFIER, MetarRegExp.WIND,
   MetarRegExp.WIND_VARIATION, MetarRegExp.VISIBILITY, MetarRegExp.MINIMUM_VISIBILITY, MetarRegExp.RUNWAY_RANGE,
   MetarRegExp.WEATHER, MetarRegExp.CLOUD, MetarRegExp.TEMPERATURES, MetarRegExp.PRESSURE,
   MetarRegExp.RECENT_WEATHER, MetarRegExp.WINDSHEAR, MetarRegExp.SEA_STATE, MetarRegExp.RUNWAY_STATE,
   MetarRegExp.TREND_TIME_PERIOD, TafRegExp.AMD_COR, TafRegExp.NIL, TafRegExp.VALID, TafRegExp.CANCELLED,
   TafRegExp.WIND]

/-- The patterns of the handlers that have an alternative without `$`. -/
def openPatterns : List RE :=
  [TafRegExp.VISIBILITY, TafRegExp.TEMPERATURE, MetarRegExp.CHANGE_INDICATOR, TafRegExp.CHANGE_INDICATOR]

/-- C98. None of the closed patterns accepts a word with a character other than capital letters, digits,
`+`, `-`, `/` and `_`, wherever it stands. -/
theorem C98_closed (re : RE) (hre : re ∈ closedPatterns) (p t : PyStr) (c : Nat) (hc : Foreign c) :
    re.match (p ++ c :: t) = none := by
  have hi : ∀ r ∈ closedPatterns, inside r = true ∧ deadEnd r = true := by decide +kernel
  rw [match_foreign hc (hi re hre).1, match_none_iff.2 (deadEnd_sound (hi re hre).2 p 0), Option.map_none]

/-- C98. An open pattern accepts such a word exactly when it accepts the part before the character in a way
that does not need `$`; it stops there, and its groups are those of that part. -/
theorem C98_open (re : RE) (hre : re ∈ openPatterns) (p t : PyStr) (c : Nat) (hc : Foreign c) (m : Match) :
    re.match (p ++ c :: t) = some m ↔
      ∃ m', (unended re).match p = some m' ∧ re.match p = some m' ∧ m.string = p ++ c :: t ∧
        m.stop = m'.stop ∧ m.stop ≤ p.length ∧ m.caps = m'.caps ∧ ∀ n, m.group n = m'.group n := by
  have hi : ∀ r ∈ openPatterns, inside r = true := by decide +kernel
  have hl : Late re := by
    simp only [openPatterns, List.mem_cons, List.not_mem_nil, or_false] at hre
    rcases hre with rfl | rfl | rfl | rfl
    · exact taf_late.1
    · exact taf_late.2.1
    · exact taf_late.2.2.1
    · exact taf_late.2.2.2
  rw [match_foreign hc (hi re hre), Option.map_eq_some_iff]
  constructor
  · rintro ⟨m', h, rfl⟩
    refine ⟨m', h, hl _ _ h, rfl, rfl, ?_, rfl, fun n => group_foreign h n⟩
    obtain ⟨-, w, hw, -⟩ := match_iff.1 h
    exact way_length hw (Nat.zero_le _)
  · rintro ⟨m', h, -, h1, h2, -, h3, -⟩
    refine ⟨m', h, ?_⟩
    cases m
    simp_all

/-- C98. And with any text at all behind it, foreign or not, what an open pattern accepts without `$` stays
accepted. -/
theorem C98_tail (re : RE) (p t : PyStr) (h : ((unended re).match p).isSome = true) :
    (re.match (p ++ t)).isSome = true := by
  cases hm : re.match (p ++ t) with
  | some => rfl
  | none =>
    rw [match_none_iff] at hm
    obtain ⟨m, hm'⟩ := Option.isSome_iff_exists.1 h
    obtain ⟨-, w, hw, -⟩ := match_iff.1 hm'
    exact absurd (way_longer t hw) (hm _ _ _)

/-- C98. The visibility of a TAF with text behind it has the value of the group without it. -/
theorem C98_visibility (p t : PyStr) (c : Nat) (hc : Foreign c) (m : Match)
    (hm : TafRegExp.VISIBILITY.match (p ++ c :: t) = some m) :
    ∃ m', TafRegExp.VISIBILITY.match p = some m' ∧
      prevailing m = (prevailing m').map fun v => { v with code := groupCode (some (p ++ c :: t)) } := by
  obtain ⟨m', -, h1, h2, -, -, -, hg⟩ := (C98_open _ (by simp [openPatterns]) p t c hc m).1 hm
  refine ⟨m', h1, ?_⟩
  unfold prevailing
  simp only [hg, h2]
  cases prevailingSize (m'.group .vis) (m'.group .integer) (m'.group .fraction) (m'.group .units) with
  | error e => rfl
  | ok v =>
    cases visDirection (m'.group .dir) with
    | error e => rfl
    | ok d =>
      show (if _ then _ else _ : Except Exc Visibility) = Except.map _ (if _ then _ else _)
      split <;> rfl

/-- C98. Every word of a TAF that begins with four digits fits the pattern of the visibility, a misspelt wind
group for instance, and gives these digits as metres. -/
theorem C98_digits (ds t : PyStr) (hl : ds.length = 4) (hd : ∀ c ∈ ds, isDigit c = true) :
    ∃ m, TafRegExp.VISIBILITY.match (ds ++ t) = some m ∧ ∀ v, prevailing m = .ok v →
      v.vis = some (whole (if ds = py!"9999" then 10000 else digitsVal ds)) ∧ v.cavok = false ∧
        v.code = groupCode (some (ds ++ t)) := by
  match ds, hl with
  | [a, b, c, d], _ =>
    obtain ⟨m, h1, h2, h3, h4⟩ := taf_four_digits t (hd a (by simp)) (hd b (by simp)) (hd c (by simp))
      (hd d (by simp))
    refine ⟨m, h1, ?_⟩
    intro v hv
    obtain ⟨e1, e2⟩ := Metres.distance (.digits [a, b, c, d]) ⟨rfl, hd⟩
    simp only [Metres.text, Metres.number, Option.map_some] at e1 e2
    unfold prevailing prevailingSize at hv
    rw [h3, h4 .integer (by decide) (by decide), h4 .fraction (by decide) (by decide),
      h4 .units (by decide) (by decide), h4 .cavok (by decide) (by decide)] at hv
    simp only [e1, true_or, if_true, e2] at hv
    have hf : strTruthy none = false := rfl
    simp only [hf, Bool.false_eq_true, or_self, if_false, bind, Except.bind, pure, Except.pure] at hv
    cases hx : visDirection (m.group .dir) with
    | error e => rw [hx] at hv; cases hv
    | ok x =>
      rw [hx] at hv
      obtain rfl := Except.ok.inj hv
      exact ⟨rfl, rfl, by rw [h2]; rfl⟩

/-- C98. The same of the temperature. -/
theorem C98_temperature (p t : PyStr) (c : Nat) (hc : Foreign c) (m : Match)
    (hm : TafRegExp.TEMPERATURE.match (p ++ c :: t) = some m) :
    ∃ m', TafRegExp.TEMPERATURE.match p = some m' ∧ ∀ time, TafTemperature.new m time =
      (TafTemperature.new m' time).map fun v => { v with code := groupCode (some (p ++ c :: t)) } := by
  obtain ⟨m', -, h1, h2, -, -, -, hg⟩ := (C98_open _ (by simp [openPatterns]) p t c hc m).1 hm
  refine ⟨m', h1, fun time => ?_⟩
  unfold TafTemperature.new
  simp only [hg, h2, bind, Except.bind]
  repeat' split
  all_goals first | rfl | simp_all

/-- C98. A change indicator with text behind it is accepted, but it is in no table: it has no translation.
(Of a TAF, the `FM` indicators are read otherwise.) -/
theorem C98_indicator (p t : PyStr) (c : Nat) (hc : Foreign c) (m : Match)
    (hm : MetarRegExp.CHANGE_INDICATOR.match (p ++ c :: t) = some m ∨
      TafRegExp.CHANGE_INDICATOR.match (p ++ c :: t) = some m) :
    changeIndicator m = .ok (groupCode (some (p ++ c :: t)), none) := by
  have hs : m.string = p ++ c :: t := by rcases hm with h | h <;> exact (match_iff.1 h).1
  have hp : startsWith (p ++ c :: t) py!"PROB" = false := by
    rcases hm with h | h
    · obtain ⟨-, w, hw, -⟩ := match_iff.1 h
      generalize m.stop = q, m.caps = cs at hw
      unfold MetarRegExp.CHANGE_INDICATOR at hw
      cases hw with
      | left h =>
        cases h with
        | seq h1 h2 => cases h1; exact prefix_get (way_letter h2) (by decide)
      | right h =>
        cases h with
        | left h => exact prefix_get (way_letter h) (by decide)
        | right h => exact prefix_get (way_letter h) (by decide)
    · obtain ⟨-, w, hw, -⟩ := match_iff.1 h
      generalize m.stop = q, m.caps = cs at hw
      unfold TafRegExp.CHANGE_INDICATOR at hw
      cases hw with
      | left h =>
        cases h with
        | seq h1 h2 => cases h1; exact prefix_get (way_letter h2) (by decide)
      | right h =>
        cases h with
        | left h => exact prefix_get (way_letter h) (by decide)
        | right h =>
          cases h with
          | left h => exact prefix_get (way_letter h) (by decide)
          | right h =>
            exfalso
            have := (way_before hc h (by decide +kernel) (Nat.zero_le _)).1
            exact deadEnd_sound (by decide +kernel) p 0 _ _ _ this
  unfold changeIndicator
  rw [hs, dget_foreign hc]
  simp only [hp, Bool.false_eq_true, if_false]

/-! ### Reports -/

/-- C98, METAR. Every group of the body with a foreign character is unparsed. -/
theorem C98_metar (db : Database) (clock : Clock) (code : PyStr) (a : Args) (r : Metar)
    (h : Metar.new db clock code a = .ok r) (g : PyStr) (hg : g ∈ metarGroups r.body)
    (c : Nat) (hc : Foreign c) (hm : c ∈ g) : g ∈ r.unparsed := by
  obtain ⟨⟨un, hl, e⟩, -⟩ := C08_metar_unparsed db clock code a r h
  rw [e, List.mem_append]
  left
  obtain ⟨p, t, rfl⟩ := List.append_of_mem hm
  obtain ⟨asg, h1, h2, h3⟩ := hl
  rcases section_foreign (⟨asg, h1, h2, rfl⟩ : Decodes _ _ _) ⟨asg, h1, h2, h3⟩ hg with h | ⟨i, hd, m, -, hi, hm⟩
  · exact h
  · exfalso
    have hall : ∀ h ∈ Metar.handlers db (clock 2) a, h.regexp ∈ closedPatterns := by
      intro h hh
      have : h.regexp ∈ (Metar.handlers db (clock 2) a).map (·.regexp) := List.mem_map_of_mem hh
      have hs : ∀ x ∈ (Metar.handlers db (clock 2) a).map (·.regexp), x ∈ closedPatterns := by
        simp only [Metar.handlers, List.map_cons, List.map_nil]
        decide +kernel
      exact hs _ this
    rw [C98_closed _ (hall _ (List.mem_of_getElem? hi)) p t c hc] at hm
    cases hm

/-- C98, trend of a METAR. A group with a foreign character is unparsed, unless it is the first and an
indicator stands before the character. -/
theorem C98_trend (db : Database) (clock : Clock) (code : PyStr) (a : Args) (r : Metar)
    (h : Metar.new db clock code a = .ok r) (x : ChangePeriod) (hx : x ∈ r.weatherTrends.list)
    (text : PyStr) (ht : x.code = some text) (p t : PyStr) (c : Nat) (hc : Foreign c)
    (hg : p ++ c :: t ∈ bodyGroups text) :
    p ++ c :: t ∈ x.unparsed ∧ p ++ c :: t ∈ r.unparsed ∨
      ∃ cs, Decodes ChangePeriod.handlers (bodyGroups text) cs ∧ (p ++ c :: t, 0) ∈ cs ∧
        (MetarRegExp.CHANGE_INDICATOR.match p).isSome = true := by
  obtain ⟨⟨un, -, e⟩, hall⟩ := C08_metar_unparsed db clock code a r h
  obtain ⟨text', ht', hl⟩ := hall x hx
  obtain rfl : text = text' := by rw [ht] at ht'; exact Option.some.inj ht'
  obtain ⟨asg, h1, h2, h3⟩ := hl
  have hd : Decodes ChangePeriod.handlers (bodyGroups text) _ := ⟨asg, h1, h2, rfl⟩
  rcases section_foreign hd ⟨asg, h1, h2, h3⟩ hg with h | ⟨i, hh, m, hi, hi', hm⟩
  · refine .inl ⟨h, ?_⟩
    rw [e]
    exact List.mem_append_right _ (List.mem_flatMap.2 ⟨x, hx, h⟩)
  · right
    have hs : ∀ j : Fin 12, j.1 = 0 ∨ ((ChangePeriod.handlers.map (·.regexp))[j.1]?).any (· ∈ closedPatterns) := by
      simp only [ChangePeriod.handlers, List.map_cons, List.map_nil]
      decide +kernel
    have hlt : i < 12 := (List.getElem?_eq_some_iff.1 hi').1
    have hr : (ChangePeriod.handlers.map (·.regexp))[i]? = some hh.regexp := by rw [List.getElem?_map, hi']; rfl
    rcases hs ⟨i, hlt⟩ with h0 | h0
    · simp only at h0
      subst h0
      refine ⟨_, hd, hi, ?_⟩
      have : hh.regexp = MetarRegExp.CHANGE_INDICATOR := (Option.some.inj hr).symm
      rw [this] at hm
      obtain ⟨m', -, h1, -⟩ := (C98_open _ (by simp [openPatterns]) p t c hc m).1 hm
      rw [h1]; rfl
    · simp only [hr, Option.any_some, decide_eq_true_eq] at h0
      rw [C98_closed _ h0 p t c hc] at hm
      cases hm

/-- C98, body of a TAF. A group with a foreign character is unparsed, unless it is taken for the visibility
or for a temperature and the part before the character is one. -/
theorem C98_taf (db : Database) (clock : Clock) (code : PyStr) (a : Args) (r : Taf)
    (h : Taf.new db clock code a = .ok r) (p t : PyStr) (c : Nat) (hc : Foreign c)
    (hg : p ++ c :: t ∈ bodyGroups r.body) :
    p ++ c :: t ∈ r.unparsed ∨
      ∃ cs i, Decodes (Taf.handlers db (clock 1) a) (bodyGroups r.body) cs ∧ (p ++ c :: t, i) ∈ cs ∧
        (i = 8 ∧ (TafRegExp.VISIBILITY.match p).isSome = true ∨
         16 ≤ i ∧ i ≤ 19 ∧ (TafRegExp.TEMPERATURE.match p).isSome = true) := by
  obtain ⟨⟨un, hl, e⟩, -⟩ := C08_taf_unparsed db clock code a r h
  obtain ⟨asg, h1, h2, h3⟩ := hl
  have hd : Decodes (Taf.handlers db (clock 1) a) (bodyGroups r.body) _ := ⟨asg, h1, h2, rfl⟩
  rcases section_foreign hd ⟨asg, h1, h2, h3⟩ hg with h | ⟨i, hh, m, hi, hi', hm⟩
  · rw [e]
    exact .inl (List.mem_append_left _ h)
  · right
    have hs : ∀ j : Fin 20,
        ((Taf.handlers db (clock 1) a).map (·.regexp))[j.1]?.any (· ∈ closedPatterns) = true ∨
        j.1 = 8 ∧ ((Taf.handlers db (clock 1) a).map (·.regexp))[j.1]? = some TafRegExp.VISIBILITY ∨
        16 ≤ j.1 ∧ j.1 ≤ 19 ∧
          ((Taf.handlers db (clock 1) a).map (·.regexp))[j.1]? = some TafRegExp.TEMPERATURE := by
      simp only [Taf.handlers, List.map_cons, List.map_nil]
      decide +kernel
    have hlt : i < 20 := (List.getElem?_eq_some_iff.1 hi').1
    have hr : ((Taf.handlers db (clock 1) a).map (·.regexp))[i]? = some hh.regexp := by
      rw [List.getElem?_map, hi']; rfl
    refine ⟨_, i, hd, hi, ?_⟩
    have hs := hs ⟨i, hlt⟩
    simp only [hr, Option.any_some, decide_eq_true_eq, Option.some.injEq] at hs
    rcases hs with h0 | ⟨h0, e⟩ | ⟨h0, h0', e⟩
    · rw [C98_closed _ h0 p t c hc] at hm
      cases hm
    · rw [e] at hm
      obtain ⟨m', -, h1, -⟩ := (C98_open _ (by simp [openPatterns]) p t c hc m).1 hm
      exact .inl ⟨h0, by rw [h1]; rfl⟩
    · rw [e] at hm
      obtain ⟨m', -, h1, -⟩ := (C98_open _ (by simp [openPatterns]) p t c hc m).1 hm
      exact .inr ⟨h0, h0', by rw [h1]; rfl⟩

/-- C98, change of a TAF. A group with a foreign character is unparsed, unless it is the first and an
indicator stands before the character. -/
theorem C98_change (db : Database) (clock : Clock) (code : PyStr) (a : Args) (r : Taf)
    (h : Taf.new db clock code a = .ok r) (x : ChangeForecasted) (hx : x ∈ r.changes.list)
    (p t : PyStr) (c : Nat) (hc : Foreign c) (hg : p ++ c :: t ∈ changeGroups x.code) :
    p ++ c :: t ∈ x.unparsed ∧ p ++ c :: t ∈ r.unparsed ∨
      ∃ cs, Decodes ChangeForecasted.handlers (changeGroups x.code) cs ∧ (p ++ c :: t, 0) ∈ cs ∧
        (TafRegExp.CHANGE_INDICATOR.match p).isSome = true := by
  obtain ⟨⟨un, -, e⟩, hall⟩ := C08_taf_unparsed db clock code a r h
  obtain ⟨asg, h1, h2, h3⟩ := hall x hx
  have hd : Decodes ChangeForecasted.handlers (changeGroups x.code) _ := ⟨asg, h1, h2, rfl⟩
  rcases section_foreign hd ⟨asg, h1, h2, h3⟩ hg with h | ⟨i, hh, m, hi, hi', hm⟩
  · refine .inl ⟨h, ?_⟩
    rw [e]
    exact List.mem_append_right _ (List.mem_flatMap.2 ⟨x, hx, h⟩)
  · right
    have hs : ∀ j : Fin 11, j.1 = 0 ∨
        ((ChangeForecasted.handlers.map (·.regexp))[j.1]?).any (· ∈ closedPatterns) := by
      simp only [ChangeForecasted.handlers, List.map_cons, List.map_nil]
      decide +kernel
    have hlt : i < 11 := (List.getElem?_eq_some_iff.1 hi').1
    have hr : (ChangeForecasted.handlers.map (·.regexp))[i]? = some hh.regexp := by
      rw [List.getElem?_map, hi']; rfl
    rcases hs ⟨i, hlt⟩ with h0 | h0
    · simp only at h0
      subst h0
      refine ⟨_, hd, hi, ?_⟩
      have : hh.regexp = TafRegExp.CHANGE_INDICATOR := (Option.some.inj hr).symm
      rw [this] at hm
      obtain ⟨m', -, h1, -⟩ := (C98_open _ (by simp [openPatterns]) p t c hc m).1 hm
      rw [h1]; rfl
    · simp only [hr, Option.any_some, decide_eq_true_eq] at h0
      rw [C98_closed _ h0 p t c hc] at hm
      cases hm

/-! ### Instances -/

/-- A comma and a lower case letter are foreign; so is `$`. -/
theorem comma_foreign : Foreign 44 ∧ Foreign 97 ∧ Foreign 36 := by
  refine ⟨⟨?_, ?_⟩, ⟨?_, ?_⟩, ⟨?_, ?_⟩⟩ <;> decide +kernel

/-- `CAVOK,` and `9999,` are no visibility of a METAR. -/
example : MetarRegExp.VISIBILITY.match py!"CAVOK," = none :=
  C98_closed _ (by decide +kernel) py!"CAVOK" [] 44 comma_foreign.1

/-- `9999,CAVOK` is one of a TAF: the pattern stops at the comma. And `CAVOK,` is none. -/
example : (TafRegExp.VISIBILITY.match py!"9999,CAVOK").map (·.stop) = some 4 ∧
    TafRegExp.VISIBILITY.match py!"CAVOK," = none := by decide +kernel

/-- `9999KT` and `TX10/1012ZZZ` go through by `C98_tail`. -/
example : (TafRegExp.VISIBILITY.match (py!"9999" ++ py!"KT")).isSome = true ∧
    (TafRegExp.TEMPERATURE.match (py!"TX10/1012Z" ++ py!"ZZ")).isSome = true :=
  ⟨C98_tail _ _ _ (by decide +kernel), C98_tail _ _ _ (by decide +kernel)⟩

/-- `TEMPO,` has no translation. -/
example : ∃ m, TafRegExp.CHANGE_INDICATOR.match py!"TEMPO,x" = some m ∧
    changeIndicator m = .ok (some py!"TEMPO,x", none) := by
  cases h : TafRegExp.CHANGE_INDICATOR.match py!"TEMPO,x" with
  | none => revert h; decide +kernel
  | some m => exact ⟨m, rfl, C98_indicator py!"TEMPO" py!"x" 44 comma_foreign.1 m (.inr h)⟩

/-- Reports: the METAR lists `9999,`; the TAF takes it for the visibility, `TX10/1512Z)` for a temperature and
`TEMPO,` for an indicator, but not `5000.` -/
example : (match Metar.new sampleDb sampleClock py!"METAR SKBO 151200Z 9999, 12/10" {} with
    | .ok r => decide (metarGroups r.body = [py!"METAR", py!"SKBO", py!"151200Z", py!"9999,", py!"12/10"] ∧
        r.unparsed = [py!"9999,"])
    | .error _ => false) = true ∧
  (match Taf.new sampleDb sampleClock
      py!"TAF SKBO 151200Z 1512/1612 09012KT 9999, TX10/1512Z) TEMPO, 1514/1518 5000." {} with
    | .ok r => decide (r.unparsed = [py!"5000."] ∧ r.core.prevailing.code = some py!"9999," ∧
        r.core.prevailing.vis = some (whole 10000))
    | .error _ => false) = true := by decide +kernel

/-- The wind group misspelt: the TAF reads a visibility of 901 m from it, and the visibility group is
unparsed. -/
example : (match Taf.new sampleDb sampleClock py!"TAF SKBO 151200Z 1512/1612 09012KTS 9999" {} with
    | .ok r => decide (r.unparsed = [py!"9999"] ∧ r.core.prevailing.code = some py!"09012KTS" ∧
        r.core.prevailing.vis = some (whole 901))
    | .error _ => false) = true := by decide +kernel

end Verif.Props
