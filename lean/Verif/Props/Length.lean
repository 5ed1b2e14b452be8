import Verif.Lemmas.Length
import Verif.Lemmas.Decoded
import Verif.Lemmas.Ambiguity
import Verif.Props.Foreign

/-
C101: the lengths of groups, and the work of matching.
-/

namespace Verif.Props
open Spec

/-- A word of every length that a pattern accepts. -/
def lengthWitnesses : List (List PyStr) :=
  [[py!"TAF", py!"METAR"],
   [py!"SKBO"],
   [py!"151200Z"],
   [py!"COR", py!"AUTO"],
   [py!"09012KT", py!"090112KT", py!"090112MPS", py!"090P112MPS", py!"09012G25MPS", py!"09012G125MPS",
    py!"090112G125MPS", py!"090P112G125MPS", py!"090P112GP125MPS"],
   [py!"080V120"],
   [py!"M", py!"SM", py!"6SM", py!"9999", py!"CAVOK", py!"2000NW", py!"1_1/2SM", py!"M1_1/2SM",
    py!"M12_1/2SM"],
   [py!"9999", py!"9999N", py!"9999NE"],
   [py!"R10/50", py!"R10L/50", py!"R10L/500", py!"R10L/5000", py!"R10/50V100", py!"R10/50V1000",
    py!"R10L/50V1000", py!"R10L/500V1000", py!"R10L/5000V1000", py!"R10L/M5000V1000", py!"R10L/M5000VP1000",
    py!"R10L/M5000VP1000N", py!"R10L/M5000VP1000FT", py!"R10L/M5000VP1000FTN"],
   [[], py!"/", py!"RA", py!"-RA", py!"TSRA", py!"+TSRA", py!"VCTSRA", py!"-VCTSRA", py!"+VCTSNSW"],
   [py!"VV", py!"SKC", py!"VVCB", py!"VV001", py!"BKN015", py!"VV001CB", py!"BKN015CB", py!"BKN015TCU"],
   [py!"12/10", py!"M02/10", py!"M02/M10"],
   [py!"1013", py!"Q1013", py!"QNH1013", py!"A2992INS", py!"QNH2992INS"],
   [py!"RE", py!"RERA", py!"RETSRA", py!"RETSRABR", py!"RETSRABRSQ"],
   [py!"WS_R09", py!"WS_R09L", py!"WS_ALL_RWY", py!"WS_ALL_R09L"],
   [py!"W15/S4", py!"WM15/S4", py!"W15/H013", py!"WM15/H013"],
   [py!"R/123456", py!"R10/123456", py!"R10L/123456"],
   [py!"FM1200"],
   [py!"COR"],
   [py!"NIL"],
   [py!"1512/1612"],
   [py!"CNL"],
   [py!"09012KT", py!"090112KT", py!"090112MPS", py!"090P112MPS", py!"09012G25MPS", py!"09012G125MPS",
    py!"090112G125MPS", py!"090P112G125MPS", py!"090P112GP125MPS"]]

/-- The words of the table are accepted and have the lengths stated. -/
theorem lengthWitnesses_ok : ((groupLengths.zip lengthWitnesses).all fun x =>
    decide (x.2.map List.length = x.1.2) && x.2.all fun w => !w.contains 10 && (x.1.1.match w).isSome) = true := by
  decide +kernel

/-- C101. The patterns that end with `$` accept words of these lengths and of no others. -/
theorem C101_closed (r : RE) (ls : List Nat) (hr : (r, ls) ∈ groupLengths) (n : Nat) :
    (∃ w, 10 ∉ w ∧ Admits r w ∧ w.length = n) ↔ n ∈ ls := by
  constructor
  · rintro ⟨w, hn, ha, rfl⟩
    have key : ∀ x ∈ groupLengths, x.1.bounded = true ∧ deadEnd x.1 = true ∧ ∀ n ∈ x.1.lens, n ∈ x.2 := by
      decide +kernel
    obtain ⟨h1, h2, h3⟩ := key _ hr
    exact h3 _ (closed_length h1 h2 hn ha)
  · intro hn
    obtain ⟨i, hi, e⟩ := List.getElem_of_mem hr
    have hl : i < (groupLengths.zip lengthWitnesses).length := by
      rw [List.length_zip]
      have : groupLengths.length = lengthWitnesses.length := by decide
      omega
    have hz := List.all_eq_true.1 lengthWitnesses_ok _ (List.getElem_mem hl)
    simp only [List.getElem_zip, e, Bool.and_eq_true, decide_eq_true_eq, List.all_eq_true, Bool.not_eq_true'] at hz
    rw [← hz.1] at hn
    obtain ⟨w, hw, rfl⟩ := List.mem_map.1 hn
    obtain ⟨h1, h2⟩ := hz.2 w hw
    refine ⟨w, ?_, Option.isSome_iff_exists.1 h2, rfl⟩
    simpa using h1

/-- C101. The others accept words of the least length stated and of every greater length. -/
theorem C101_open (r : RE) (k : Nat) (hr : (r, k) ∈ leastLengths) (n : Nat) :
    (∃ w, 10 ∉ w ∧ Admits r w ∧ w.length = n) ↔ k ≤ n := by
  constructor
  · rintro ⟨w, -, ha, rfl⟩
    obtain ⟨v, q, cs, hw⟩ := admits_way ha
    have key : ∀ x ∈ leastLengths, x.1.least = x.2 := by decide +kernel
    have := key _ hr
    have := way_least hw
    have := way_length hw (Nat.zero_le _)
    simp only at *
    omega
  · intro hk
    have key : ∀ x ∈ leastLengths, ∃ b ∈ [py!"M", py!"TX10/1512Z", py!"TEMPO"], b.length = x.2 ∧ 10 ∉ b ∧
        ((unended x.1).match b).isSome = true := by decide +kernel
    obtain ⟨b, -, h1, h2, h3⟩ := key _ hr
    obtain ⟨m, hm⟩ := Option.isSome_iff_exists.1 h3
    obtain ⟨-, w, hw, -⟩ := match_iff.1 hm
    refine ⟨b ++ List.replicate (n - k) 65, ?_, ?_, ?_⟩
    · simp [h2]
    · have := way_longer (List.replicate (n - k) 65) hw
      cases hx : r.match (b ++ List.replicate (n - k) 65) with
      | none => exact absurd this (match_none_iff.1 hx _ _ _)
      | some m => exact ⟨m, hx⟩
    · simp only at h1
      simp [h1]
      omega

/-- C101. Whatever the word, however long, matching it with any of the patterns finds at most 4320 ways and
takes at most 12961 tests of a character or position: there is no word that keeps the parser busy. -/
theorem C101_work (r : RE) (hr : r ∈ closedPatterns ++ openPatterns) (s : PyStr) (p : Nat) (cs : Caps) :
    (explore s r p).1 = (RE.m s r (p, cs)).map (·.1) ∧
    (explore s r p).1.length ≤ 4320 ∧ (explore s r p).2 ≤ 12961 := by
  have key : ∀ x ∈ closedPatterns ++ openPatterns, x.bounded = true ∧ x.cost.1 ≤ 4320 ∧ x.cost.2 ≤ 12961 := by
    decide +kernel
  obtain ⟨h1, h2, h3⟩ := key r hr
  have := explore_cost s r h1 p
  exact ⟨explore_ends s r p cs, by omega, by omega⟩

/-- Places of the closed patterns in a table, with the greatest length of their words. -/
theorem closed_long {σ : Type} {hs : List (Handler σ)} {gs : List PyStr} {c : List (PyStr × Nat)}
    (hc : Decodes hs gs c) {w : PyStr} {i : Nat} (hm : (w, i) ∈ c) (hn : 10 ∉ w) {b : Nat} (hl : b < w.length)
    {h : Handler σ} (hi : hs[i]? = some h)
    (hk : (groupLengths.any fun x => decide (x.1 = h.regexp) && x.2.all fun n => decide (n ≤ b)) = true) : False := by
  obtain ⟨f, hf, ha⟩ := consumed_accepts hc hm
  obtain ⟨m, ha⟩ := Option.isSome_iff_exists.1 ha
  rw [hi, Option.some.injEq] at hf
  subst hf
  obtain ⟨⟨r, ls⟩, hx, hy⟩ := List.any_eq_true.1 hk
  simp only [Bool.and_eq_true, decide_eq_true_eq, List.all_eq_true] at hy
  obtain ⟨rfl, hall⟩ := hy
  have := (C101_closed _ _ hx w.length).1 ⟨w, hn, ⟨m, ha⟩, rfl⟩
  have := hall _ this
  omega

/-- C101, METAR. A word of more than 19 characters is not decoded. -/
theorem C101_metar (db : Database) (clock : Clock) (code : PyStr) (a : Args) (r : Metar)
    (h : Metar.new db clock code a = .ok r) (c : List (PyStr × Nat)) (un : List PyStr)
    (hc : Decodes (Metar.handlers db (clock 2) a) (metarGroups r.body) c)
    (hl : Leaves (Metar.handlers db (clock 2) a) (metarGroups r.body) un) (w : PyStr)
    (hw : w ∈ metarGroups r.body) (hlen : 19 < w.length) : w ∈ un := by
  obtain ⟨t, -, -, -, hn⟩ := Metar.new_decodes h hc
  rw [(decodes_perm hc hl).mem_iff, List.mem_append] at hw
  rcases hw with hw | hw
  · exfalso
    obtain ⟨⟨w, i⟩, hm, rfl⟩ := List.mem_map.1 hw
    have hlt := (decodes_order hc).2 _ hm
    have key : ∀ r ∈ (Metar.handlers db (clock 2) a).map Handler.regexp,
        (groupLengths.any fun x => decide (x.1 = r) && x.2.all fun n => decide (n ≤ 19)) = true := by
      show ∀ r ∈ metarOrder.map MetarKind.pattern, _
      decide +kernel
    exact closed_long hc hm (hn w i hm) hlen (List.getElem?_eq_getElem hlt)
      (key _ (List.mem_map_of_mem (List.getElem_mem hlt)))
  · exact hw

/-- Of the words longer than `b` only those taken at places where the table allows it are decoded. -/
theorem long_places {σ : Type} {hs : List (Handler σ)} {gs : List PyStr} {c : List (PyStr × Nat)}
    (hc : Decodes hs gs c) {b : Nat} (ok : List Nat)
    (hk : ((List.range hs.length).all fun i => ok.contains i || (hs.map Handler.regexp)[i]?.any fun r =>
      groupLengths.any fun x => decide (x.1 = r) && x.2.all fun n => decide (n ≤ b)) = true)
    {w : PyStr} {i : Nat} (hm : (w, i) ∈ c) (hn : 10 ∉ w) (hl : b < w.length) : i ∈ ok := by
  have hlt := (decodes_order hc).2 _ hm
  have := List.all_eq_true.1 hk i (List.mem_range.2 hlt)
  rw [Bool.or_eq_true] at this
  rcases this with h | h
  · simpa using h
  · exfalso
    rw [List.getElem?_map, List.getElem?_eq_getElem hlt, Option.map_some, Option.any_some] at h
    exact closed_long hc hm hn hl (List.getElem?_eq_getElem hlt) h

/-- C101, TAF. A word of more than 15 characters is decoded as visibility or temperature or not at all. -/
theorem C101_taf (db : Database) (clock : Clock) (code : PyStr) (a : Args) (r : Taf)
    (h : Taf.new db clock code a = .ok r) (c : List (PyStr × Nat))
    (hc : Decodes (Taf.handlers db (clock 1) a) (bodyGroups r.body) c) (w : PyStr) (i : Nat)
    (hw : (w, i) ∈ c) (hlen : 15 < w.length) : i = 8 ∨ 16 ≤ i := by
  obtain ⟨t, v, -, -, -, -, hn⟩ := Taf.new_decodes h hc
  have := long_places hc (b := 15) [8, 16, 17, 18, 19]
    (by show ((List.range 20).all fun i => _ || (tafOrder.map TafKind.pattern)[i]?.any _) = true; decide +kernel)
    hw (hn w i hw) hlen
  simp only [List.mem_cons, List.not_mem_nil, or_false] at this
  omega

/-- C101, trends of METARs. A word of more than 15 characters is decoded as the change indicator or not at all. -/
theorem C101_trend (db : Database) (clock : Clock) (code : PyStr) (a : Args) (r : Metar)
    (h : Metar.new db clock code a = .ok r) (p : ChangePeriod) (hp : p ∈ r.weatherTrends.list) (text : PyStr)
    (ht : p.code = some text) (c : List (PyStr × Nat))
    (hc : Decodes ChangePeriod.handlers (bodyGroups text) c) (w : PyStr) (i : Nat)
    (hw : (w, i) ∈ c) (hlen : 15 < w.length) : i = 0 := by
  obtain ⟨ind, p1, -, -, -, -, -, -, hn⟩ := Metar.trend_decodes h hp ht hc
  have := long_places hc (b := 15) [0]
    (by show ((List.range 12).all fun i => _ || (trendOrder.map TrendGroupKind.pattern)[i]?.any _) = true
        decide +kernel)
    hw (hn w i hw) hlen
  simpa using this

/-- C101, changes of TAFs. The same. -/
theorem C101_change (db : Database) (clock : Clock) (code : PyStr) (a : Args) (r : Taf)
    (h : Taf.new db clock code a = .ok r) (x : ChangeForecasted) (hx : x ∈ r.changes.list)
    (c : List (PyStr × Nat)) (hc : Decodes ChangeForecasted.handlers (changeGroups x.code) c)
    (w : PyStr) (i : Nat) (hw : (w, i) ∈ c) (hlen : 15 < w.length) : i = 0 := by
  obtain ⟨p1, -, -, -, -, -, hn⟩ := Taf.change_decodes h hx hc
  have := long_places hc (b := 15) [0]
    (by show ((List.range 11).all fun i => _ || (changeOrder.map ChangeGroupKind.pattern)[i]?.any _) = true
        decide +kernel)
    hw (hn w i hw) hlen
  simpa using this

/-! ### Instances -/

/-- The longest group of a METAR is decoded, with one more character it is not. -/
example : (match Metar.new sampleDb sampleClock py!"METAR SKBO 151200Z R10L/M0500VP1000FTN" {},
      Metar.new sampleDb sampleClock py!"METAR SKBO 151200Z R10L/M0500VP1000FTNN" {} with
    | .ok r, .ok r' => decide (r.unparsed = [] ∧ r.runwayRanges.list.length = 1 ∧
        r'.unparsed = [py!"R10L/M0500VP1000FTNN"])
    | _, _ => false) = true := by decide +kernel

/-- A long word of a TAF, taken for the visibility. -/
example : (match Taf.new sampleDb sampleClock py!"TAF SKBO 151200Z 1512/1612 9999ANDAVERYLONGTAIL" {} with
    | .ok r => decide (r.unparsed = [] ∧ r.core.prevailing.code = some py!"9999ANDAVERYLONGTAIL")
    | _ => false) = true := by decide +kernel

/-- The work does not grow with the word. -/
example : (explore py!"+TSRAGR" MetarRegExp.WEATHER 0).2 =
    (explore (py!"+TSRAGR" ++ List.replicate 50 65) MetarRegExp.WEATHER 0).2 := by decide +kernel

end Verif.Props
