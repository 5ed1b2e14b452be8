import Verif.Lemmas.Local
import Verif.Props.Local
import Verif.Props.TafSections
import Verif.Props.Text
import Verif.Props.UnknownWord

/-
C78: the body of a report read alone.
-/

namespace Verif.Props
open Verif Verif.Spec

/-! ### METAR -/

/-- The body is the text up to the first opening word. -/
theorem metarBody_prefix {raw : PyStr} (hbar : 124 ∉ raw) (hne : (metarSections raw).1 ≠ []) :
    (metarSections raw).1 = raw ∨ ∃ t, raw = (metarSections raw).1 ++ 32 :: t := by
  obtain ⟨h1, h2, h3, h4⟩ := pieces_cut metarWords_plain raw hbar
  rw [metarSections_eq] at hne ⊢
  cases hp : splitC 124 (cut metarWords raw) with
  | nil => exact absurd hp h1
  | cons p ps =>
    rw [hp] at h2 h3 hne
    simp only [List.tail_cons] at h3
    have hnb : ∀ q ∈ ps, isBody q = false := by
      intro q hq
      obtain ⟨kw, hk, hpre⟩ := h3 q hq
      unfold isBody isTrend
      simp only [metarWords, List.mem_cons, List.not_mem_nil, or_false] at hk
      have : Opens trendWords q ∨ Opens [py!"RMK"] q := by
        rcases hk with rfl | rfl | rfl | rfl
        · exact .inl ⟨_, by decide, hpre⟩
        · exact .inl ⟨_, by decide, hpre⟩
        · exact .inl ⟨_, by decide, hpre⟩
        · exact .inr ⟨_, by simp, hpre⟩
      rcases this with h | h <;> simp [h]
    have hf : ps.filter isBody = [] := List.filter_eq_nil_iff.2 fun q hq => by simp [hnb q hq]
    simp only [List.filter_cons, hf] at hne ⊢
    cases hb : isBody p with
    | false => rw [hb] at hne; simp at hne
    | true =>
      simp only [if_true, List.getLast?_singleton, Option.getD_some]
      rw [← h2]
      cases ps with
      | nil => exact .inl rfl
      | cons q qs => exact .inr ⟨join [32] (q :: qs), by simp [join]⟩

/-- A text without opening words is all body. -/
theorem metarSections_body {b : PyStr} (hbar : 124 ∉ b) (h1 : ¬ Holds metarWords b)
    (h2 : ¬ Opens metarWords b) : metarSections b = (b, [], []) := by
  have hs : splitC 124 (cut metarWords b) = [b] := by
    rw [cut_whole h1]
    exact splitC_join [b] (by simp) (by simpa using hbar)
  have ht : isTrend b = false := by
    unfold isTrend
    rw [decide_eq_false_iff_not]
    rintro ⟨kw, hk, hp⟩
    exact h2 ⟨kw, (by decide : ∀ k ∈ trendWords, k ∈ metarWords) kw hk, hp⟩
  have hr : ¬ Opens [py!"RMK"] b := by
    rintro ⟨kw, hk, hp⟩
    exact h2 ⟨kw, (by decide : ∀ k ∈ [py!"RMK"], k ∈ metarWords) kw hk, hp⟩
  rw [metarSections_eq, hs]
  have k1 : isBody b = true := by unfold isBody; simp [ht, hr]
  have k2 : isRemark b = false := by unfold isRemark; simp [hr]
  simp only [List.filter_cons, k1, k2, ht, List.filter_nil]
  simp [strip, lstrip, rstrip]

theorem tidy_prefix {p t : PyStr} (h : Tidy (p ++ t)) : Tidy p := by
  refine ⟨fun hc => h.1 (by simp [hc]), fun hc => h.2.1 (by simp [hc]), ?_⟩
  intro pre a b post e
  exact h.2.2 pre a b (post ++ t) (by rw [e]; simp)

/-- What stands before a blank of a tidy and trimmed text is tidy and trimmed. -/
theorem tidy_front {p t : PyStr} (h : Tidy (p ++ 32 :: t)) (ht : Trimmed (p ++ 32 :: t)) :
    Tidy p ∧ Trimmed p := by
  refine ⟨tidy_prefix h, ?_, ?_⟩
  · intro c hc
    refine ht.1 c ?_
    cases p with
    | nil => cases hc
    | cons x p => exact hc
  · intro c hc
    obtain ⟨q, rfl⟩ := List.getLast?_eq_some_iff.1 hc
    cases hs : isSpace c with
    | false => rfl
    | true =>
      exact absurd ⟨hs, (by decide : isSpace 32 = true)⟩ (h.2.2 q c 32 t (by simp))

theorem metar_body_alone {db : Database} {clock : Clock} {code : PyStr} {a : Args} {r : Metar}
    (h : Metar.new db clock code a = .ok r) {b : PyStr} (hne : b ≠ []) (hn : normalizeCode b = b)
    (hs : metarSections b = ((metarSections (normalizeCode code)).1, [], [])) :
    ∃ r', Metar.new db clock b ⟨a.year, a.month, false⟩ = .ok r' ∧ r'.rawCode = b ∧
      r'.sections = [(metarSections (normalizeCode code)).1, [], []] ∧ r'.weatherTrends.list = [] := by
  obtain ⟨t0, time, r1, un, r2, -, h0, h1, h2, hf, -, -, -⟩ := Metar.new_ok h
  rw [Metar.new_eq db clock b _ hne, hn]
  generalize normalizeCode code = raw at *
  rw [h0]
  simp only [ok_bind]
  rw [h1]
  simp only [ok_bind]
  have et : Metar.bodyText b = Metar.bodyText raw := by
    unfold Metar.bodyText
    rw [hs]
  have es : Metar.start b time = (Metar.start raw time).relabel b
      [(metarSections b).1, (metarSections b).2.1, (metarSections b).2.2] := rfl
  rw [et, es, Metar.handlers_args db (clock 2) (a := a) (a' := ⟨a.year, a.month, false⟩) rfl rfl]
  unfold parseSection at h2 ⊢
  rw [parseGo_map (fun h hh m s => Metar.handlers_relabel hh m s), h2]
  simp only [except_map_ok, ok_bind]
  have ht : (r1.relabel b [(metarSections b).1, (metarSections b).2.1, (metarSections b).2.2]).trend = [] := by
    show (metarSections b).2.1 = []
    rw [hs]
  have hsp : splitSentence [] [py!"TEMPO", py!"BECMG"] 1 .both = [[]] := by decide +kernel
  rw [ht, hsp]
  have hw : r1.weatherTrends = GroupList.new 2 := hf.trends
  have hi := GroupList.iter_reset r1.weatherTrends (by rw [hw]; rfl)
  simp only [Metar.trendsGo]
  simp only [ok_bind, pure_ok, ne_eq, not_true_eq_false, if_false, Bool.false_eq_true, and_false]
  refine ⟨_, rfl, rfl, ?_, ?_⟩
  · show [(metarSections b).1, (metarSections b).2.1, (metarSections b).2.2] = _
    rw [hs]
  · show r1.weatherTrends.iter.2.list = []
    rw [hi, hw]
    rfl

/-- C78 (METAR). The body of a report, read alone, gives the report without its trends: the constructor
succeeds, the text is all body, and everything read from the body is as in the whole report. -/
theorem C78_metar {db : Database} {clock : Clock} {code : PyStr} {a : Args} {r : Metar}
    (he : 61 ∉ code) (hbar : 124 ∉ r.rawCode) (h : Metar.new db clock code a = .ok r) (hne : r.body ≠ []) :
    ∃ r', Metar.new db clock r.body ⟨a.year, a.month, false⟩ = .ok r' ∧ SameMetarBody r r' ∧
      r'.rawCode = r.body ∧ r'.sections = [r.body, [], []] ∧ r'.weatherTrends.list = [] := by
  obtain ⟨e1, -, -, e4⟩ := Metar.new_sections h
  obtain ⟨k1, k2, -, -, -, k6, -⟩ := C10_shape db clock code a r h
  obtain ⟨n1, n2⟩ := (C03_normal_form db clock code a he).1 r h
  have n3 := (C02_no_equals db clock code a).1 r h
  have hp : r.body = r.rawCode ∨ ∃ t, r.rawCode = r.body ++ 32 :: t := by
    rw [e4] at hbar
    rw [e1] at hne ⊢
    rw [e4]
    exact metarBody_prefix hbar hne
  have hn : normalizeCode r.body = r.body := by
    rcases hp with hp | ⟨t, hp⟩
    · rw [hp]
      exact normalizeCode_tidy n1 n2 n3
    · rw [hp] at n1 n2 n3
      obtain ⟨m1, m2⟩ := tidy_front n1 n2
      exact normalizeCode_tidy m1 m2 fun hc => n3 (by simp [hc])
  have hs := metarSections_body k6 k1 k2
  obtain ⟨r', q1, q2, q3, q4⟩ := metar_body_alone h hne hn (by rw [hs, e1])
  rw [← e1] at q3
  refine ⟨r', q1, ?_, q2, q3, q4⟩
  refine Metar.new_local (a := a) (a' := ⟨a.year, a.month, false⟩) rfl rfl h q1 ?_
  rw [show r'.body = r'.sections.getD 0 [] from rfl, q3]
  rfl

/-! ### TAF -/

theorem taf_body_alone {db : Database} {clock : Clock} {code : PyStr} {a : Args} {r : Taf}
    (h : Taf.new db clock code a = .ok r) {b : PyStr} (hne : b ≠ []) (hn : normalizeCode b = b)
    (hs : tafSections b = ((tafSections (normalizeCode code)).1, [])) :
    ∃ r', Taf.new db clock b ⟨a.year, a.month, false⟩ = .ok r' ∧ r'.rawCode = b ∧
      r'.body = (tafSections (normalizeCode code)).1 ∧ r'.changesCodes = [] ∧ r'.changes.list = [] := by
  obtain ⟨time, v, r1, un, r2, -, h0, h1, h2, hf, -, -, -⟩ := Taf.new_ok h
  rw [Taf.new_eq db clock b _ hne, hn]
  generalize normalizeCode code = raw at *
  rw [h0]
  simp only [ok_bind]
  rw [h1]
  simp only [ok_bind]
  have et : Taf.bodyText b = Taf.bodyText raw := by
    unfold Taf.bodyText
    rw [hs]
  have es : Taf.start b time v = (Taf.start raw time v).recode b [] := by
    unfold Taf.start Taf.recode
    rw [hs]
  rw [et, es, Taf.handlers_args db (clock 1) (a := a) (a' := ⟨a.year, a.month, false⟩) rfl rfl]
  unfold parseSection at h2 ⊢
  rw [parseGo_map (fun h hh m s => Taf.handlers_recode hh m s), h2]
  simp only [except_map_ok, ok_bind]
  have hw : r1.changes = GroupList.new 8 := hf.changes
  have hi := GroupList.iter_reset r1.changes (by rw [hw]; rfl)
  have hc : (r1.recode b []).changesCodes = [] := rfl
  rw [hc]
  simp only [Taf.changesGo]
  simp only [ok_bind, pure_ok, Bool.false_eq_true, and_false, if_false]
  refine ⟨_, rfl, rfl, hf.body, rfl, ?_⟩
  show r1.changes.iter.2.list = []
  rw [hi, hw]
  rfl

/-- C78 (TAF). The same of a TAF whose words are a body and then changes. -/
theorem C78_taf (db : Database) (clock : Clock) (a : Args) (w0 : PyStr) (bs rest : List PyStr)
    (changes : List (PyStr × List PyStr))
    (hw : ∀ w ∈ w0 :: bs ++ rest, Unbarred w ∧ 95 ∉ w) (hin : ∀ w ∈ bs ++ rest, ¬ py!"TAF" <:+ w)
    (e : joinProbs 5 (w0 :: bs ++ rest) = w0 :: bs ++ changes.flatMap fun p => p.1 :: p.2)
    (h0 : ¬ py!"TAF" <:+ w0 ∧ (∀ w ∈ bs, ¬ Opens tafWords w) ∨
      w0 = py!"TAF" ∧ bs ≠ [] ∧ ∀ w ∈ bs.tail, ¬ Opens tafWords w)
    (hc : ∀ p ∈ changes, Opens tafWords p.1 ∧ ∀ w ∈ p.2, ¬ Opens tafWords w) (r : Taf)
    (h : Taf.new db clock (join [32] (w0 :: bs ++ rest)) a = .ok r) :
    r.body = join [32] (w0 :: bs) ∧
    ∃ r', Taf.new db clock (join [32] (w0 :: bs)) ⟨a.year, a.month, false⟩ = .ok r' ∧ SameTafBody r r' ∧
      r'.rawCode = r.body ∧ r'.body = r.body ∧ r'.changesCodes = [] ∧ r'.changes.list = [] := by
  obtain ⟨hb, -⟩ := C11_sections db clock a _ w0 bs changes hw hin e h0 hc r h
  have hjoin : joinProbs 5 (w0 :: bs) = w0 :: bs := by
    have ht : ∀ {l : List PyStr}, (∀ w ∈ l, ¬ Opens tafWords w) → ∀ w ∈ l, ¬ py!"TEMPO" <+: w :=
      fun hl w hm hp => hl w hm ⟨_, by decide, hp⟩
    rcases h0 with ⟨-, h0⟩ | ⟨rfl, hne, h0⟩
    · exact joinProbs_back (n := 5) (A := [w0]) (ht h0)
    · cases bs with
      | nil => exact absurd rfl hne
      | cons b bt =>
        rw [joinProbs_cons (not_prob_short (by decide))]
        exact congrArg (_ :: ·) (joinProbs_back (n := 5) (A := [b]) (ht h0))
  have hw' : ∀ w ∈ w0 :: bs, Unbarred w ∧ 95 ∉ w := fun w hm => hw w (List.mem_append_left _ hm)
  have hin' : ∀ w ∈ (w0 :: bs).tail, ¬ py!"TAF" <:+ w := fun w hm => hin w (List.mem_append_left _ hm)
  obtain ⟨hn, hs⟩ := tafSections_text (changes := []) hw' hin' (by simpa using hjoin) h0 (by simp)
  obtain ⟨hn0, hs0⟩ := tafSections_text hw hin e h0 hc
  have hne : join [32] (w0 :: bs) ≠ [] := by
    intro hj
    have hu := (hw' w0 (by simp)).1.1.1
    cases bs with
    | nil => exact hu hj
    | cons b bt => simp [join] at hj
  obtain ⟨r', q1, q2, q3, q4, q5⟩ := taf_body_alone h hne hn (by rw [hs, hn0, hs0]; rfl)
  rw [hn0, hs0] at q3
  exact ⟨hb, r', q1, Taf.new_local (a := a) (a' := ⟨a.year, a.month, false⟩) rfl rfl h q1 (q3.trans hb.symm), by rw [q2, hb],
    q3.trans hb.symm, q4, q5⟩

/-- A report with a trend and a remark, and what its body alone gives. -/
example : ((metarOk sampleClock py!"METAR KJFK 101251Z 18004KT XX 9999 TEMPO 4000 YY RMK A" ⟨none, none, false⟩).map
      fun r => (r.body, r.unparsed, r.time.time)) =
    some (py!"METAR KJFK 101251Z 18004KT XX 9999", [py!"XX", py!"YY"], ⟨2024, 6, 10, 12, 51⟩) ∧
    ((metarOk sampleClock py!"METAR KJFK 101251Z 18004KT XX 9999" ⟨none, none, false⟩).map
      fun r => (r.body, r.unparsed, r.time.time)) =
    some (py!"METAR KJFK 101251Z 18004KT XX 9999", [py!"XX"], ⟨2024, 6, 10, 12, 51⟩) := by decide +kernel

/-- A TAF with a change made of three words; the conditions hold of it. -/
example : (∀ w ∈ [py!"TAF", py!"KJFK", py!"18004KT", py!"PROB30", py!"TEMPO", py!"4000"],
      Unbarred w ∧ 95 ∉ w) ∧
    joinProbs 5 [py!"TAF", py!"KJFK", py!"18004KT", py!"PROB30", py!"TEMPO", py!"4000"] =
      [py!"TAF", py!"KJFK", py!"18004KT"] ++ [py!"PROB30_TEMPO", py!"4000"] ∧
    ((tafOk sampleClock py!"TAF KJFK 18004KT PROB30 TEMPO 4000" ⟨none, none, false⟩).map
      fun r => (r.body, r.changesCodes)) =
    some (py!"TAF KJFK 18004KT", [py!"PROB30_TEMPO 4000"]) := by
  unfold Unbarred Word
  decide +kernel

end Verif.Props
