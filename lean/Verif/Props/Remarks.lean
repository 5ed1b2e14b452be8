import Verif.Lemmas.Relabel
import Verif.Props.Sections

/-
C58: remarks do not influence the decoded data.
-/

namespace Verif.Props
open Spec

/-- A run of white space between two texts. -/
theorem blanks_between {p w q : PyStr} (hp : ∀ c, p.getLast? = some c → isSpace c = false)
    (h0 : w ≠ []) (hw : ∀ c ∈ w, isSpace c = true) (hq : ∀ c, q.head? = some c → isSpace c = false) :
    blanks (p ++ (w ++ q)) = blanks p ++ (squeeze w ++ blanks q) := by
  revert hp
  refine runs_induction (P := fun p => (∀ c, p.getLast? = some c → isSpace c = false) →
    blanks (p ++ (w ++ q)) = blanks p ++ (squeeze w ++ blanks q)) ?_ ?_ ?_ p
  · intro _
    rw [List.nil_append, blanks_nil, List.nil_append, blanks_run h0 hw hq]
  · intro c t hc ih h
    rw [List.cons_append, blanks_cons hc, blanks_cons hc, ih, List.cons_append]
    intro d hd
    refine h d ?_
    rw [List.getLast?_cons, hd]
    rfl
  · intro v rest hv0 hv hr ih h
    have hne : rest ≠ [] := by
      rintro rfl
      rw [List.append_nil] at h
      have := h _ (List.getLast?_eq_some_getLast hv0)
      rw [hv _ (List.getLast_mem hv0)] at this
      cases this
    rw [List.append_assoc, blanks_run hv0 hv, blanks_run hv0 hv hr, ih, List.append_assoc]
    · intro d hd
      refine h d ?_
      rw [List.getLast?_append, hd]
      rfl
    · intro c hc
      rw [List.head?_append] at hc
      refine hr c ?_
      cases hx : rest.head? with
      | none => rw [List.head?_eq_none_iff] at hx; exact absurd hx hne
      | some d => rw [hx] at hc; exact hc

/-- The report code of a text followed by words. -/
theorem normalizeCode_append {code : PyStr} {ws : List PyStr} (hne : ws ≠ []) (hw : ∀ w ∈ ws, Word w) :
    (strip code = [] ∧ normalizeCode (code ++ 32 :: join [32] ws) = join [32] ws) ∨
    normalizeCode (code ++ 32 :: join [32] ws) = normalizeCode code ++ 32 :: join [32] ws := by
  have htr := trimmed_join hw
  have hn := normalizeCode_join hne hw
  rw [normalizeCode_eq, strip_id htr.1 htr.2] at hn
  have hj : join [32] ws ≠ [] := by
    cases ws with
    | nil => exact absurd rfl hne
    | cons w ws =>
      have := (hw w (by simp)).1
      cases ws with
      | nil => exact this
      | cons _ _ => simp [join, this]
  generalize join [32] ws = rest at *
  obtain ⟨t, ht, hts⟩ := rstrip_prefix (lstrip code)
  have hrest : ∀ u, rstrip (u ++ rest) = u ++ rest := by
    intro u
    unfold rstrip
    rw [dropWhile_id, List.reverse_reverse]
    intro c hc
    rw [List.head?_reverse, List.getLast?_append] at hc
    refine htr.2 c ?_
    rw [List.getLast?_eq_some_getLast hj] at hc ⊢
    exact hc
  by_cases hs : strip code = []
  · refine .inl ⟨hs, ?_⟩
    have hall : ∀ c ∈ code, isSpace c = true := by
      have hl : ∀ c ∈ lstrip code, isSpace c = true := by
        rw [ht]
        have : rstrip (lstrip code) = [] := hs
        rw [this]
        exact hts
      intro c hc
      rw [← List.takeWhile_append_dropWhile (p := isSpace) (l := code)] at hc
      rcases List.mem_append.1 hc with hc | hc
      · have := List.all_takeWhile (p := isSpace) (l := code)
        exact List.all_eq_true.1 this c hc
      · exact hl c hc
    have e : strip (code ++ 32 :: rest) = rest := by
      unfold strip
      rw [lstrip_append hall, show 32 :: rest = [32] ++ rest from rfl, lstrip_append (by simp; decide)]
      unfold lstrip
      rw [dropWhile_id htr.1]
      exact hrest []
    rw [normalizeCode_eq, e, hn]
  · right
    have e : strip (code ++ 32 :: rest) = strip code ++ ((t ++ [32]) ++ rest) := by
      have h1 : lstrip (code ++ 32 :: rest) = lstrip code ++ 32 :: rest := by
        unfold lstrip
        rw [List.dropWhile_append]
        have : (List.dropWhile isSpace code).isEmpty = false := by
          rw [List.isEmpty_eq_false_iff]
          intro h0
          apply hs
          unfold strip lstrip
          rw [h0]
          rfl
        rw [this]
        rfl
      have e2 : rstrip (lstrip code) = strip code := rfl
      unfold strip
      rw [h1]
      conv => lhs; rw [ht, e2]
      rw [show strip code ++ t ++ 32 :: rest = (strip code ++ (t ++ [32])) ++ rest by simp, hrest,
        List.append_assoc]
      rfl
    have hq : squeeze (t ++ [32]) = [32] := by
      unfold squeeze
      cases t with
      | nil => rfl
      | cons a b => simp
    rw [normalizeCode_eq, normalizeCode_eq, e,
      blanks_between (strip_last code) (by simp) (by
        intro c hc
        rcases List.mem_append.1 hc with hc | hc
        · exact hts c hc
        · simp at hc; subst hc; decide) htr.1, hq, List.filter_append, List.filter_append, hn]
    rfl

/-- The sections of a code followed by a remark. -/
theorem metarSections_remark {raw : PyStr} {p : PyStr × List PyStr} (hp : Part [py!"RMK"] metarWords p) :
    metarSections (raw ++ 32 :: join [32] (p.1 :: p.2)) =
      ((metarSections raw).1, (metarSections raw).2.1, join [32] (p.1 :: p.2)) := by
  have ho : Opens [py!"RMK"] (join [32] (p.1 :: p.2)) := (opens_join rmk_plain).2 hp.2.1
  have hh : ¬ Holds metarWords (join [32] (p.1 :: p.2)) := by
    intro h
    obtain ⟨v, hv, hv'⟩ := holds_join metarWords_plain hp.1.no_blank
      (fun v hv => (hp.2.2 v hv).1.no_blank) h
    exact (hp.2.2 v hv).2 hv'
  have hbar : 124 ∉ join [32] (p.1 :: p.2) := no_bar_join (by
    intro w hw
    rcases List.mem_cons.1 hw with rfl | hw
    · exact hp.1
    · exact (hp.2.2 w hw).1)
  generalize join [32] (p.1 :: p.2) = rest at *
  have hcut : cut metarWords (raw ++ 32 :: rest) = cut metarWords raw ++ 124 :: rest := by
    rw [cut_append metarWords_plain]
    congr 1
    show (if 32 = 32 ∧ opensB metarWords rest = true then 124 else 32) :: cut metarWords rest = _
    rw [if_pos ⟨rfl, opensB_iff.2 (remark_metar ho)⟩, cut_whole hh]
  have hsplit : splitC 124 (cut metarWords raw ++ 124 :: rest) =
      splitC 124 (cut metarWords raw) ++ [rest] := by
    have h1 := join_splitC (sep := 124) (cut metarWords raw)
    have h2 := splitC_no_sep (sep := 124) (cut metarWords raw)
    have h3 := splitC_ne 124 (cut metarWords raw)
    generalize splitC 124 (cut metarWords raw) = ps at *
    rw [← h1, show join [124] ps ++ 124 :: rest = join [124] ps ++ [124] ++ join [124] [rest] by simp [join],
      ← join_append h3 (by simp), splitC_join _ (by simp)]
    intro w hw
    rcases List.mem_append.1 hw with hw | hw
    · exact h2 w hw
    · simp at hw; subst hw; exact hbar
  rw [metarSections_eq, metarSections_eq raw, hcut, hsplit]
  obtain ⟨f1, f2, f3⟩ := isRemark_of ho
  simp [List.filter_append, f1, f2, f3]

theorem metarSections_only {p : PyStr × List PyStr} (hp : Part [py!"RMK"] metarWords p) :
    metarSections (join [32] (p.1 :: p.2)) = ([], [], join [32] (p.1 :: p.2)) := by
  have ho : Opens [py!"RMK"] (join [32] (p.1 :: p.2)) := (opens_join rmk_plain).2 hp.2.1
  have hh : ¬ Holds metarWords (join [32] (p.1 :: p.2)) := by
    intro h
    obtain ⟨v, hv, hv'⟩ := holds_join metarWords_plain hp.1.no_blank
      (fun v hv => (hp.2.2 v hv).1.no_blank) h
    exact (hp.2.2 v hv).2 hv'
  have hbar : 124 ∉ join [32] (p.1 :: p.2) := no_bar_join (by
    intro w hw
    rcases List.mem_cons.1 hw with rfl | hw
    · exact hp.1
    · exact (hp.2.2 w hw).1)
  generalize join [32] (p.1 :: p.2) = rest at *
  rw [metarSections_eq, cut_whole hh,
    show rest = join [124] [rest] from rfl, splitC_join _ (by simp) (by simpa using hbar)]
  obtain ⟨f1, f2, f3⟩ := isRemark_of ho
  simp [f1, f2, f3, join]
  rfl

/-- The sections of a text followed by a remark. -/
theorem sections_append {code : PyStr} {p : PyStr × List PyStr} (hp : Part [py!"RMK"] metarWords p) :
    (strip code = [] ∨ normalizeCode (code ++ 32 :: join [32] (p.1 :: p.2)) =
      normalizeCode code ++ 32 :: join [32] (p.1 :: p.2)) ∧
    metarSections (normalizeCode (code ++ 32 :: join [32] (p.1 :: p.2))) =
      ((metarSections (normalizeCode code)).1, (metarSections (normalizeCode code)).2.1,
       join [32] (p.1 :: p.2)) := by
  have hw : ∀ w ∈ p.1 :: p.2, Word w := by
    intro w hw
    rcases List.mem_cons.1 hw with rfl | hw
    · exact hp.1.1
    · exact (hp.2.2 w hw).1.1
  rcases normalizeCode_append (code := code) (by simp) hw with ⟨h, e⟩ | e
  · refine ⟨.inl h, ?_⟩
    rw [e, metarSections_only hp, normalizeCode_eq, h, blanks_nil]
    rfl
  · exact ⟨.inr e, by rw [e, metarSections_remark hp]⟩

/-- C58. A remark added to any METAR text changes the code, the third section and nothing else of
the report; where the text is refused, it is refused with the same exception, up to the code quoted
in the message. -/
theorem C58_remark (db : Database) (clock : Clock) (code : PyStr) (a : Args) (p : PyStr × List PyStr)
    (hc : code ≠ []) (hp : Part [py!"RMK"] metarWords p) :
    (∀ r, Metar.new db clock code a = .ok r →
      ∃ raw, Metar.new db clock (code ++ 32 :: join [32] (p.1 :: p.2)) a =
        .ok { r with rawCode := raw, sections := [r.body, r.trend, join [32] (p.1 :: p.2)] } ∧
        (raw = r.rawCode ++ 32 :: join [32] (p.1 :: p.2) ∨ ∀ c ∈ code, isSpace c = true)) ∧
    (∀ e, Metar.new db clock code a = .error e →
      Metar.new db clock (code ++ 32 :: join [32] (p.1 :: p.2)) a = .error e ∨
      ∃ un raw raw', e = .parser (Metar.errorMessage un raw) ∧
        Metar.new db clock (code ++ 32 :: join [32] (p.1 :: p.2)) a =
          .error (.parser (Metar.errorMessage un raw'))) := by
  obtain ⟨h1, h2⟩ := sections_append (code := code) hp
  obtain ⟨k1, k2⟩ := Metar.new_relabel db clock code (code ++ 32 :: join [32] (p.1 :: p.2)) a hc
    (by simp) (by rw [h2]) (by rw [h2])
  constructor
  · intro r hr
    refine ⟨normalizeCode (code ++ 32 :: join [32] (p.1 :: p.2)), (k1 r hr).trans ?_, ?_⟩
    · rw [h2]; rfl
    · rw [(Metar.new_sections hr).2.2.2]
      rcases h1 with h1 | h1
      · right
        obtain ⟨t, ht, hts⟩ := rstrip_prefix (lstrip code)
        have hs : rstrip (lstrip code) = [] := h1
        rw [hs, List.nil_append] at ht
        intro c hc
        rw [← List.takeWhile_append_dropWhile (p := isSpace) (l := code)] at hc
        rcases List.mem_append.1 hc with hc | hc
        · exact List.all_eq_true.1 (List.all_takeWhile (p := isSpace) (l := code)) c hc
        · exact hts c (ht ▸ hc)
      · exact .inl h1
  · intro e he
    rcases k2 e he with h | ⟨un, h, h'⟩
    · exact .inl h
    · exact .inr ⟨un, _, _, h, h'⟩

/-- Case: a report with a trend, its remark, and the hypothesis. -/
example : (match Metar.new sampleDb sampleClock py!"METAR SKBO 151200Z 9999 TEMPO 2000 =" {},
      Metar.new sampleDb sampleClock py!"METAR SKBO 151200Z 9999 TEMPO 2000 = RMK A2992 9999" {} with
    | .ok r, .ok r' => decide (
        r'.rawCode = py!"METAR SKBO 151200Z 9999 TEMPO 2000  RMK A2992 9999" ∧
        r'.sections = [r.body, r.trend, py!"RMK A2992 9999"] ∧ r'.str = r.str ∧
        r.weatherTrends.list.length = 1)
    | _, _ => false) = true := by decide +kernel

example : Part [py!"RMK"] metarWords (py!"RMK", [py!"A2992", py!"9999"]) := by
  unfold Part Unbarred Word
  decide +kernel

/-- Case: a refused report. -/
example : (match Metar.new sampleDb sampleClock py!"METAR SKBO 151200Z WHAT" { truncate := true },
      Metar.new sampleDb sampleClock py!"METAR SKBO 151200Z WHAT RMK A2992" { truncate := true } with
    | .error e, .error e' => decide (e = .parser (Metar.errorMessage [py!"WHAT"] py!"METAR SKBO 151200Z WHAT") ∧
        e' = .parser (Metar.errorMessage [py!"WHAT"] py!"METAR SKBO 151200Z WHAT RMK A2992"))
    | _, _ => false) = true := by decide +kernel

end Verif.Props
