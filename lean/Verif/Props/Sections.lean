import Verif.Lemmas.Sections
import Verif.Props.Text
import Verif.Props.Exceptions

/-
C09, C10: the sections of a METAR.
-/

namespace Verif.Props
open Spec

theorem trend_metar {p : PyStr} (h : Opens trendWords p) : Opens metarWords p := by
  obtain ⟨kw, hk, hp⟩ := h
  refine ⟨kw, ?_, hp⟩
  revert hk
  simp only [trendWords, metarWords, List.mem_cons, List.not_mem_nil, or_false]
  rintro (h | h | h)
  · exact .inl h
  · exact .inr (.inl h)
  · exact .inr (.inr (.inl h))

theorem remark_metar {p : PyStr} (h : Opens [py!"RMK"] p) : Opens metarWords p := by
  obtain ⟨kw, hk, hp⟩ := h
  exact ⟨kw, by simp only [List.mem_singleton] at hk; simp [metarWords, hk], hp⟩

theorem metar_cases {p : PyStr} (h : Opens metarWords p) :
    Opens trendWords p ∨ Opens [py!"RMK"] p := by
  obtain ⟨kw, hk, hp⟩ := h
  simp only [metarWords, List.mem_cons, List.not_mem_nil, or_false] at hk
  rcases hk with h | h | h | h
  · exact .inl ⟨kw, by simp [trendWords, h], hp⟩
  · exact .inl ⟨kw, by simp [trendWords, h], hp⟩
  · exact .inl ⟨kw, by simp [trendWords, h], hp⟩
  · exact .inr ⟨kw, by simp [h], hp⟩

/-- A text cannot begin with a trend word and with `RMK`. -/
theorem trend_not_remark {p : PyStr} (h : Opens trendWords p) : ¬ Opens [py!"RMK"] p := by
  rintro ⟨k', hk', t', ht'⟩
  obtain ⟨kw, hk, t, rfl⟩ := h
  simp only [List.mem_singleton] at hk'
  subst hk'
  simp only [trendWords, List.mem_cons, List.not_mem_nil, or_false] at hk
  rcases hk with rfl | rfl | rfl <;> simp at ht'

theorem isTrend_of {p : PyStr} (h : Opens trendWords p) :
    isTrend p = true ∧ isBody p = false ∧ isRemark p = false := by
  simp [isTrend, isBody, isRemark, h]

theorem isRemark_of {p : PyStr} (h : Opens [py!"RMK"] p) :
    isTrend p = false ∧ isBody p = false ∧ isRemark p = true := by
  have : ¬ Opens trendWords p := fun h' => trend_not_remark h' h
  simp [isTrend, isBody, isRemark, h, this]

theorem isBody_of {p : PyStr} (h : ¬ Opens metarWords p) :
    isTrend p = false ∧ isBody p = true ∧ isRemark p = false := by
  have h1 : ¬ Opens trendWords p := fun h' => h (trend_metar h')
  have h2 : ¬ Opens [py!"RMK"] p := fun h' => h (remark_metar h')
  simp [isTrend, isBody, isRemark, h1, h2]

theorem filter_all {α : Type} {f : α → Bool} {l : List α} (h : ∀ x ∈ l, f x = true) : l.filter f = l :=
  List.filter_eq_self.2 h

theorem filter_none {α : Type} {f : α → Bool} {l : List α} (h : ∀ x ∈ l, f x = false) :
    l.filter f = [] := by
  rw [List.filter_eq_nil_iff]
  intro x hx
  simp [h x hx]

theorem flatMap_blank (ps : List PyStr) : ps.flatMap (· ++ [32]) = if ps = [] then [] else join [32] ps ++ [32] := by
  induction ps with
  | nil => rfl
  | cons p ps ih =>
    rw [List.flatMap_cons, ih]
    cases ps with
    | nil => simp [join]
    | cons q qs => simp [join]

theorem trimmed_join {ws : List PyStr} (hw : ∀ w ∈ ws, Word w) : Trimmed (join [32] ws) := by
  cases ws with
  | nil => exact ⟨by simp [join], by simp [join]⟩
  | cons w ws =>
    have := layout_trimmed w (ws.map fun v => ([32], v)) (hw w (by simp)) (by
      intro p hp
      obtain ⟨v, hv, rfl⟩ := List.mem_map.1 hp
      exact hw v (by simp [hv]))
    have e : layout w (ws.map fun v => ([32], v)) = join [32] (w :: ws) := by
      unfold layout
      clear hw this
      induction ws generalizing w with
      | nil => simp [join]
      | cons v vs ih => simp only [join, List.map_cons, List.flatMap_cons, ← ih]; simp
    rwa [e] at this

/-- Words joined by blanks are their own report code. -/
theorem normalizeCode_join {ws : List PyStr} (hne : ws ≠ []) (hw : ∀ w ∈ ws, Word w) :
    normalizeCode (join [32] ws) = join [32] ws := by
  cases ws with
  | nil => exact absurd rfl hne
  | cons w ws =>
    have := normalizeCode_layout [] [] w (ws.map fun v => ([32], v)) (by simp [White]) (by simp [White])
      (hw w (by simp)) (by
        intro p hp
        obtain ⟨v, hv, rfl⟩ := List.mem_map.1 hp
        exact ⟨⟨by simp [White]; decide, .inr (.inl rfl)⟩, hw v (by simp [hv])⟩)
    have e : layout w (ws.map fun v => ([32], v)) = join [32] (w :: ws) := by
      unfold layout
      clear hw this hne
      induction ws generalizing w with
      | nil => simp [join]
      | cons v vs ih => simp only [join, List.map_cons, List.flatMap_cons, ← ih]; simp
    simpa [e, Function.comp_def] using this

theorem metar_pieces (body : List PyStr) (trends : List (PyStr × List PyStr))
    (remark : Option (PyStr × List PyStr)) (hne : body ≠ [])
    (hb : ∀ w ∈ body, Unbarred w ∧ ¬ Opens metarWords w)
    (ht : ∀ p ∈ trends, Part trendWords metarWords p)
    (hr : ∀ p ∈ remark, Part [py!"RMK"] metarWords p) :
    Pieces metarWords (join [32] (metarText body trends remark))
      (join [32] body :: (trends.map (fun p => join [32] (p.1 :: p.2)) ++
        (remark.toList.map fun p => join [32] (p.1 :: p.2)))) ∧
    ∀ w ∈ metarText body trends remark, Unbarred w := by
  have hall : ∀ p ∈ trends ++ remark.toList, Unbarred p.1 ∧ Opens metarWords p.1 ∧
      ∀ w ∈ p.2, Unbarred w ∧ ¬ Opens metarWords w := by
    intro p hp
    rcases List.mem_append.1 hp with hp | hp
    · have := ht p hp
      exact ⟨this.1, trend_metar this.2.1, this.2.2⟩
    · have := hr p (by simpa using hp)
      exact ⟨this.1, remark_metar this.2.1, this.2.2⟩
  have e : metarText body trends remark =
      (body :: (trends ++ remark.toList).map fun p => p.1 :: p.2).flatten := by
    simp [metarText, List.flatMap_def]
  have epieces : join [32] body :: (trends.map (fun p => join [32] (p.1 :: p.2)) ++
        (remark.toList.map fun p => join [32] (p.1 :: p.2))) =
      (body :: (trends ++ remark.toList).map fun p => p.1 :: p.2).map (join [32]) := by
    simp [Function.comp_def]
  constructor
  · refine ⟨by simp, ?_, ?_, ?_⟩
    · rw [epieces, e, join_flatten]
      intro ws hws
      rcases List.mem_cons.1 hws with rfl | hws
      · exact hne
      · obtain ⟨p, -, rfl⟩ := List.mem_map.1 hws
        simp
    · intro q hq
      rw [List.tail_cons, ← List.map_append] at hq
      obtain ⟨p, hp, rfl⟩ := List.mem_map.1 hq
      exact (opens_join metarWords_plain).2 (hall p hp).2.1
    · intro q hq
      rw [← List.map_append] at hq
      rcases List.mem_cons.1 hq with rfl | hq
      · cases body with
        | nil => exact absurd rfl hne
        | cons w ws =>
          intro h
          obtain ⟨v, hv, ho⟩ := holds_join metarWords_plain (hb w (by simp)).1.no_blank
            (fun v hv => (hb v (by simp [hv])).1.no_blank) h
          exact (hb v (by simp [hv])).2 ho
      · obtain ⟨p, hp, rfl⟩ := List.mem_map.1 hq
        intro h
        obtain ⟨v, hv, ho⟩ := holds_join metarWords_plain (hall p hp).1.no_blank
          (fun v hv => ((hall p hp).2.2 v hv).1.no_blank) h
        exact ((hall p hp).2.2 v hv).2 ho
  · rw [e]
    intro w hw
    simp only [List.flatten_cons, List.mem_append, List.mem_flatten, List.mem_map] at hw
    rcases hw with hw | ⟨ws, ⟨p, hp, rfl⟩, hw⟩
    · exact (hb w hw).1
    · have := hall p (List.mem_append.2 hp)
      rcases List.mem_cons.1 hw with rfl | hw
      · exact this.1
      · exact (this.2.2 w hw).1

theorem no_bar_join {ws : List PyStr} (h : ∀ w ∈ ws, Unbarred w) : 124 ∉ join [32] ws := by
  intro hx
  rcases mem_join hx with hx | ⟨w, hw, hx⟩
  · simp at hx
  · exact (h w hw).2 hx

theorem metarSections_text (body : List PyStr)
    (trends : List (PyStr × List PyStr)) (remark : Option (PyStr × List PyStr)) (hne : body ≠ [])
    (hb : ∀ w ∈ body, Unbarred w ∧ ¬ Opens metarWords w)
    (ht : ∀ p ∈ trends, Part trendWords metarWords p)
    (hr : ∀ p ∈ remark, Part [py!"RMK"] metarWords p) :
    normalizeCode (join [32] (metarText body trends remark)) = join [32] (metarText body trends remark) ∧
    (metarSections (join [32] (metarText body trends remark))).1 = join [32] body ∧
    (metarSections (join [32] (metarText body trends remark))).2.1 =
      join [32] (trends.flatMap fun p => p.1 :: p.2) ∧
    (metarSections (join [32] (metarText body trends remark))).2.2 =
      join [32] (remark.toList.flatMap fun p => p.1 :: p.2) := by
  obtain ⟨hp, hw⟩ := metar_pieces body trends remark hne hb ht hr
  have hn : normalizeCode (join [32] (metarText body trends remark)) =
      join [32] (metarText body trends remark) := by
    apply normalizeCode_join _ fun w h => (hw w h).1
    simp [metarText, hne]
  have hcut := pieces_unique metarWords_plain (no_bar_join hw) hp
  have hs := metarSections_eq (join [32] (metarText body trends remark))
  rw [hcut] at hs
  have fb : isTrend (join [32] body) = false ∧ isBody (join [32] body) = true ∧
      isRemark (join [32] body) = false := by
    apply isBody_of
    cases body with
    | nil => exact absurd rfl hne
    | cons w ws => exact fun ho => (hb w (by simp)).2 ((opens_join metarWords_plain).1 ho)
  have ft : ∀ q ∈ trends.map (fun p => join [32] (p.1 :: p.2)),
      isTrend q = true ∧ isBody q = false ∧ isRemark q = false := by
    intro q hq
    obtain ⟨p, hp, rfl⟩ := List.mem_map.1 hq
    exact isTrend_of ((opens_join trendWords_plain).2 (ht p hp).2.1)
  have fr : ∀ q ∈ remark.toList.map (fun p => join [32] (p.1 :: p.2)),
      isTrend q = false ∧ isBody q = false ∧ isRemark q = true := by
    intro q hq
    obtain ⟨p, hp, rfl⟩ := List.mem_map.1 hq
    exact isRemark_of ((opens_join rmk_plain).2 (hr p (by simpa using hp)).2.1)
  simp only [List.filter_cons, List.filter_append, fb.1, fb.2.1, fb.2.2, if_true, if_false,
    filter_all fun q hq => (ft q hq).1, filter_none fun q hq => (ft q hq).2.1,
    filter_none fun q hq => (ft q hq).2.2, filter_none fun q hq => (fr q hq).1,
    filter_none fun q hq => (fr q hq).2.1, filter_all fun q hq => (fr q hq).2.2,
    List.append_nil, List.nil_append, Bool.false_eq_true] at hs
  rw [hs]
  refine ⟨hn, rfl, ?_, ?_⟩
  · simp only
    rw [flatMap_blank]
    by_cases h0 : trends = []
    · subst h0; rfl
    · rw [if_neg (by simpa using h0)]
      have ej : join [32] (trends.map fun p => join [32] (p.1 :: p.2)) =
          join [32] (trends.flatMap fun p => p.1 :: p.2) := by
        have := join_flatten (sep := [32]) (wss := trends.map fun p => p.1 :: p.2) (by
          intro ws hws
          obtain ⟨p, -, rfl⟩ := List.mem_map.1 hws
          simp)
        rw [List.map_map] at this
        rw [List.flatMap_def, ← this]
        rfl
      have htr : Trimmed (join [32] (trends.flatMap fun p => p.1 :: p.2)) := by
        apply trimmed_join
        intro w hw'
        exact (hw w (by simp only [metarText, List.mem_append]; exact .inl (.inr hw'))).1
      rw [ej]
      unfold strip
      have hl : lstrip (join [32] (trends.flatMap fun p => p.1 :: p.2) ++ [32]) =
          join [32] (trends.flatMap fun p => p.1 :: p.2) ++ [32] := by
        apply dropWhile_id
        intro c hc
        refine htr.1 c ?_
        rw [List.head?_append] at hc
        cases hx : (join [32] (trends.flatMap fun p => p.1 :: p.2)).head? with
        | some d => rw [hx] at hc; exact hc
        | none =>
          rw [List.head?_eq_none_iff] at hx
          exfalso
          cases trends with
          | nil => exact h0 rfl
          | cons p ps =>
            have hp1 := (ht p (by simp)).1.1.1
            simp only [List.flatMap_cons, List.cons_append] at hx
            generalize p.2 ++ List.flatMap (fun p => p.1 :: p.2) ps = l at hx
            cases l with
            | nil => exact hp1 hx
            | cons _ _ => simp [join] at hx
      rw [hl, rstrip_append (by simp; decide)]
      unfold rstrip
      rw [dropWhile_id (by simpa using htr.2), List.reverse_reverse]
  · simp only
    cases remark with
    | none => rfl
    | some p => simp

/-- C09. A METAR text made of body words, then trends each opened by a trend word, then an optional
remark opened by `RMK`, is cut into exactly these sections. -/
theorem C09_sections (db : Database) (clock : Clock) (a : Args) (body : List PyStr)
    (trends : List (PyStr × List PyStr)) (remark : Option (PyStr × List PyStr)) (hne : body ≠ [])
    (hb : ∀ w ∈ body, Unbarred w ∧ ¬ Opens metarWords w)
    (ht : ∀ p ∈ trends, Part trendWords metarWords p)
    (hr : ∀ p ∈ remark, Part [py!"RMK"] metarWords p) (r : Metar)
    (h : Metar.new db clock (join [32] (metarText body trends remark)) a = .ok r) :
    r.rawCode = join [32] (metarText body trends remark) ∧
    r.body = join [32] body ∧
    r.trend = join [32] (trends.flatMap fun p => p.1 :: p.2) ∧
    r.remark = join [32] (remark.toList.flatMap fun p => p.1 :: p.2) := by
  obtain ⟨hn, h1, h2, h3⟩ := metarSections_text body trends remark hne hb ht hr
  obtain ⟨e1, e2, e3, e4⟩ := Metar.new_sections h
  rw [hn] at e1 e2 e3 e4
  exact ⟨e4, e1.trans h1, e2.trans h2, e3.trans h3⟩

/-- Case: a body, two trends and a remark. -/
example : (match Metar.new sampleDb sampleClock
      py!"METAR SKBO 151200Z 9999 TEMPO 2000 BECMG NSC RMK A2992 NOSIGX" {} with
    | .ok r => decide (r.body = py!"METAR SKBO 151200Z 9999" ∧
        r.trend = py!"TEMPO 2000 BECMG NSC NOSIGX" ∧ r.remark = py!"RMK A2992")
    | .error _ => false) = true := by decide +kernel

/-- Case: the hypotheses hold for a body, two trends and a remark. -/
example : (∀ w ∈ [py!"METAR", py!"SKBO"], Unbarred w ∧ ¬ Opens metarWords w) ∧
    (∀ p ∈ [(py!"TEMPO", [py!"2000"]), (py!"BECMG", [])], Part trendWords metarWords p) ∧
    (∀ p ∈ some (py!"RMK", [py!"A2992"]), Part [py!"RMK"] metarWords p) ∧
    join [32] (metarText [py!"METAR", py!"SKBO"] [(py!"TEMPO", [py!"2000"]), (py!"BECMG", [])]
      (some (py!"RMK", [py!"A2992"]))) = py!"METAR SKBO TEMPO 2000 BECMG RMK A2992" := by
  unfold Part Unbarred Word
  simp only [Option.mem_def, Option.some.injEq, forall_eq']
  decide +kernel

/-- C10. Whatever the text: the body holds no blank followed by an opening word and does not begin
with one; the trend section is empty or begins with a trend word; the remark is empty or begins
with `RMK` and holds no blank followed by an opening word; no section has a bar. -/
theorem C10_shape (db : Database) (clock : Clock) (code : PyStr) (a : Args) (r : Metar)
    (h : Metar.new db clock code a = .ok r) :
    ¬ Holds metarWords r.body ∧ ¬ Opens metarWords r.body ∧
    (r.trend = [] ∨ Opens trendWords r.trend) ∧
    (r.remark = [] ∨ Opens [py!"RMK"] r.remark) ∧ ¬ Holds metarWords r.remark ∧
    124 ∉ r.body ∧ 124 ∉ r.trend ∧ 124 ∉ r.remark := by
  obtain ⟨e1, e2, e3, -⟩ := Metar.new_sections h
  rw [metarSections_eq] at e1 e2 e3
  simp only at e1 e2 e3
  have hwhole := pieces_whole metarWords_plain (normalizeCode code)
  have hbar := splitC_no_sep (sep := 124) (cut metarWords (normalizeCode code))
  generalize splitC 124 (cut metarWords (normalizeCode code)) = ps at *
  have hlast : ∀ f : PyStr → Bool, ((ps.filter f).getLast?.getD [] = []) ∨
      ((ps.filter f).getLast?.getD [] ∈ ps ∧ f ((ps.filter f).getLast?.getD []) = true) := by
    intro f
    cases hl : (ps.filter f).getLast? with
    | none => exact .inl rfl
    | some x =>
      have := List.mem_of_getLast? hl
      rw [List.mem_filter] at this
      exact .inr this
  have hnil : ¬ Holds metarWords [] := by
    rintro ⟨pre, post, h, -⟩
    simp at h
  have hbody : ¬ Holds metarWords r.body ∧ ¬ Opens metarWords r.body ∧ 124 ∉ r.body := by
    rw [e1]
    rcases hlast isBody with h0 | ⟨hm, hf⟩
    · rw [h0]
      exact ⟨hnil, by decide +kernel, by simp⟩
    · refine ⟨hwhole _ hm, ?_, hbar _ hm⟩
      intro ho
      rcases metar_cases ho with ho | ho
      · rw [(isTrend_of ho).2.1] at hf; cases hf
      · rw [(isRemark_of ho).2.1] at hf; cases hf
  have hrem : (r.remark = [] ∨ Opens [py!"RMK"] r.remark) ∧ ¬ Holds metarWords r.remark ∧
      124 ∉ r.remark := by
    rw [e3]
    rcases hlast isRemark with h0 | ⟨hm, hf⟩
    · rw [h0]
      exact ⟨.inl rfl, hnil, by simp⟩
    · refine ⟨.inr ?_, hwhole _ hm, hbar _ hm⟩
      simp only [isRemark, Bool.and_eq_true, decide_eq_true_eq] at hf
      exact hf.2
  have htr : (r.trend = [] ∨ Opens trendWords r.trend) ∧ 124 ∉ r.trend := by
    rw [e2]
    constructor
    · cases hl : ps.filter isTrend with
      | nil => exact .inl rfl
      | cons p l =>
        refine .inr ?_
        have hp : p ∈ ps.filter isTrend := by rw [hl]; simp
        rw [List.mem_filter] at hp
        have ho : Opens trendWords p := of_decide_eq_true hp.2
        obtain ⟨kw, hk, t, rfl⟩ := ho
        refine ⟨kw, hk, ?_⟩
        rw [List.flatMap_cons, List.append_assoc, List.append_assoc]
        have hkp := trendWords_plain kw hk
        have hls : ∀ s, lstrip (kw ++ s) = kw ++ s := by
          intro s
          apply dropWhile_id
          intro c hc
          cases kw with
          | nil => exact absurd rfl hkp.1
          | cons d u =>
            simp at hc
            subst hc
            exact (hkp.2 d (by simp)).1
        unfold strip
        rw [hls]
        obtain ⟨tail, he, hsp⟩ := rstrip_prefix (kw ++ (t ++ ([32] ++ l.flatMap (· ++ [32]))))
        generalize rstrip (kw ++ (t ++ ([32] ++ l.flatMap (· ++ [32])))) = x at he ⊢
        rw [List.append_eq_append_iff] at he
        rcases he with ⟨as, h1, -⟩ | ⟨bs, h1, h2⟩
        · exact ⟨as, h1.symm⟩
        · cases bs with
          | nil => exact ⟨[], by simpa using h1⟩
          | cons d u =>
            exfalso
            have hd : d ∈ kw := by rw [h1]; simp
            have := hsp d (by rw [h2]; simp)
            rw [(hkp.2 d hd).1] at this
            cases this
    · intro hx
      have := strip_mem hx
      rw [List.mem_flatMap] at this
      obtain ⟨p, hp, hx⟩ := this
      rw [List.mem_filter] at hp
      simp only [List.mem_append, List.mem_singleton] at hx
      rcases hx with hx | hx
      · exact hbar p hp.1 hx
      · cases hx
  exact ⟨hbody.1, hbody.2.1, htr.1, hrem.1, hrem.2.1, hbody.2.2, htr.2, hrem.2.2⟩

/-- Case: bars and keywords in odd places. -/
example : (match Metar.new sampleDb sampleClock
      py!"RMK X|METAR SKBO|TEMPO 2000|9999 RMK Y" {} with
    | .ok r => decide (r.body = py!"9999" ∧ r.trend = py!"TEMPO 2000" ∧ r.remark = py!"RMK Y")
    | .error _ => false) = true := by decide +kernel

end Verif.Props
