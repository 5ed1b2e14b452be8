import Verif.Lemmas.Blanks
import Verif.Lemmas.Construct
import Verif.Spec.Text

/-
The text of a report: white space and the end-of-message sign (C01, C02, C03).
-/

namespace Verif.Props
open Verif Spec

theorem normalizeCode_eq (code : PyStr) :
    normalizeCode code = (blanks (strip code)).filter (· ≠ 61) := by
  show replace (blanks (strip code)) [61] [] = _
  rw [replace_char_nil]

theorem blanks_word {w s : PyStr} (h : ∀ c ∈ w, isSpace c = false) :
    blanks (w ++ s) = w ++ blanks s := by
  induction w with
  | nil => rfl
  | cons c t ih =>
    rw [List.cons_append, blanks_cons (h c (by simp)), ih fun d hd => h d (by simp [hd])]
    rfl

theorem squeeze_separator {w : PyStr} (h : Separator w) : squeeze w = [32] := by
  unfold squeeze
  rcases h.2 with h | h | h | h
  · simp [h]
  · subst h; rfl
  · subst h; rfl
  · subst h; rfl

theorem separator_ne {w : PyStr} (h : Separator w) : w ≠ [] := by
  rcases h.2 with h | h | h | h
  · intro hw; subst hw; simp at h
  · subst h; simp
  · subst h; simp
  · subst h; simp

theorem blanks_layout (first : PyStr) (rest : List (PyStr × PyStr)) (hf : Word first)
    (hr : ∀ p ∈ rest, Separator p.1 ∧ Word p.2) :
    blanks (layout first rest) = join [32] (first :: rest.map (·.2)) := by
  unfold layout
  induction rest generalizing first with
  | nil =>
    simp only [List.flatMap_nil, List.append_nil, List.map_nil, join]
    have := blanks_word (w := first) (s := []) fun c hc => (hf.2 c hc).1
    simpa [blanks_nil] using this
  | cons p ps ih =>
    obtain ⟨hs, hw⟩ := hr p (by simp)
    rw [blanks_word fun c hc => (hf.2 c hc).1]
    simp only [List.flatMap_cons, List.map_cons, join, List.append_assoc]
    congr 1
    rw [blanks_run (separator_ne hs) hs.1, squeeze_separator hs]
    · rw [ih p.2 hw fun q hq => hr q (by simp [hq])]
    · intro c hc
      obtain ⟨hne, hw⟩ := hw
      cases h2 : p.2 with
      | nil => exact absurd h2 hne
      | cons d t =>
        rw [h2] at hc hw
        simp at hc
        subst hc
        exact (hw d (by simp)).1

theorem layout_trimmed (first : PyStr) (rest : List (PyStr × PyStr)) (hf : Word first)
    (hr : ∀ p ∈ rest, Word p.2) : Trimmed (layout first rest) := by
  constructor
  · intro c hc
    obtain ⟨hne, hw⟩ := hf
    cases first with
    | nil => exact absurd rfl hne
    | cons d t =>
      simp [layout] at hc
      subst hc
      exact (hw d (by simp)).1
  · intro c hc
    unfold layout at hc
    have key : ∀ (first : PyStr) (rest : List (PyStr × PyStr)), Word first →
        (∀ p ∈ rest, Word p.2) →
        (first ++ rest.flatMap fun p => p.1 ++ p.2).getLast? = some c → isSpace c = false := by
      intro first rest
      induction rest generalizing first with
      | nil =>
        intro hf _ hc
        simp only [List.flatMap_nil, List.append_nil] at hc
        exact (hf.2 c (List.mem_of_getLast? hc)).1
      | cons p ps ih =>
        intro hf hr hc
        have hp := hr p (by simp)
        refine ih p.2 hp (fun q hq => hr q (by simp [hq])) ?_
        simp only [List.flatMap_cons] at hc
        rw [List.append_assoc, ← List.append_assoc, List.getLast?_append] at hc
        have hne : p.2 ++ (ps.flatMap fun p => p.1 ++ p.2) ≠ [] := by simp [hp.1]
        rw [List.getLast?_eq_some_getLast hne] at hc ⊢
        simpa using hc
    exact key first rest hf hr hc

/-- Whatever separates and surrounds the words, they are joined by single blanks. -/
theorem normalizeCode_layout (lead trail first : PyStr) (rest : List (PyStr × PyStr)) (hl : White lead)
    (ht : White trail) (hf : Word first) (hr : ∀ p ∈ rest, Separator p.1 ∧ Word p.2) :
    normalizeCode (lead ++ layout first rest ++ trail) = join [32] (first :: rest.map (·.2)) := by
  have htrim := layout_trimmed first rest hf fun p hp => (hr p hp).2
  have hstrip : strip (lead ++ layout first rest ++ trail) = layout first rest := by
    have h1 : strip (lead ++ layout first rest ++ trail) = rstrip (lstrip (layout first rest ++ trail)) := by
      unfold strip
      rw [List.append_assoc, lstrip_append hl]
    rw [h1]
    have h2 : lstrip (layout first rest ++ trail) = layout first rest ++ trail := by
      apply dropWhile_id
      intro c hc
      have hne : layout first rest ≠ [] := by
        intro h
        unfold layout at h
        exact hf.1 (List.append_eq_nil_iff.1 h).1
      obtain ⟨d, t, hd⟩ : ∃ d t, layout first rest = d :: t := by
        cases h : layout first rest with
        | nil => exact absurd h hne
        | cons d t => exact ⟨d, t, rfl⟩
      rw [hd] at hc
      simp at hc
      refine htrim.1 c ?_
      rw [hd]; simp [hc]
    rw [h2, rstrip_append ht]
    unfold rstrip
    rw [dropWhile_id (by simpa using htrim.2), List.reverse_reverse]
  rw [normalizeCode_eq, hstrip, blanks_layout first rest hf hr]
  apply List.filter_eq_self.2
  have hj : ∀ (ws : List PyStr), (∀ w ∈ ws, ∀ c ∈ w, c ≠ 61) → ∀ c ∈ join [32] ws, c ≠ 61 := by
    intro ws
    induction ws with
    | nil => simp [join]
    | cons w t ih =>
      intro h c hc
      cases t with
      | nil =>
        simp only [join] at hc
        exact h w (by simp) c hc
      | cons v u =>
        simp only [join, List.mem_append, List.mem_singleton] at hc
        rcases hc with (hc | hc) | hc
        · exact h w (by simp) c hc
        · subst hc; decide
        · exact ih (fun x hx => h x (by simp [hx])) c hc
  intro c hc
  have := hj (first :: rest.map (·.2)) ?_ c hc
  · simpa using this
  · intro w hw d hd
    simp only [List.mem_cons, List.mem_map] at hw
    rcases hw with rfl | ⟨p, hp, rfl⟩
    · exact (hf.2 d hd).2
    · exact ((hr p hp).2.2 d hd).2

/-- The words METAR, SCEL separated by a newline and two blanks. -/
example : Word py!"METAR" ∧ Separator py!"\n  " ∧ White py!" \t" ∧
    normalizeCode (py!" \t" ++ layout py!"METAR" [(py!"\n  ", py!"SCEL"), (py!"\t", py!"CAVOK")] ++ py!"\n") =
      py!"METAR SCEL CAVOK" := by
  unfold Word Separator White
  decide +kernel

/-- The constructors see the text only through the report code. -/
theorem metar_congr (db : Database) (clock : Clock) (a : Args) (c d : PyStr) (hc : c ≠ [])
    (hd : d ≠ []) (h : normalizeCode c = normalizeCode d) :
    Metar.new db clock c a = Metar.new db clock d a := by
  rw [Metar.new_eq db clock c a hc, Metar.new_eq db clock d a hd, h]

theorem taf_congr (db : Database) (clock : Clock) (a : Args) (c d : PyStr) (hc : c ≠ [])
    (hd : d ≠ []) (h : normalizeCode c = normalizeCode d) :
    Taf.new db clock c a = Taf.new db clock d a := by
  rw [Taf.new_eq db clock c a hc, Taf.new_eq db clock d a hd, h]

/-- C01. The whole result of the constructors, report or exception, does not depend on the layout. -/
theorem C01_same_report (db : Database) (clock : Clock) (a : Args)
    (lead trail lead' trail' first : PyStr) (rest rest' : List (PyStr × PyStr))
    (hl : White lead) (ht : White trail) (hl' : White lead') (ht' : White trail') (hf : Word first)
    (hr : ∀ p ∈ rest, Separator p.1 ∧ Word p.2) (hr' : ∀ p ∈ rest', Separator p.1 ∧ Word p.2)
    (hsame : rest.map (·.2) = rest'.map (·.2)) :
    Metar.new db clock (lead ++ layout first rest ++ trail) a =
        Metar.new db clock (lead' ++ layout first rest' ++ trail') a ∧
      Taf.new db clock (lead ++ layout first rest ++ trail) a =
        Taf.new db clock (lead' ++ layout first rest' ++ trail') a := by
  have h : normalizeCode (lead ++ layout first rest ++ trail) =
      normalizeCode (lead' ++ layout first rest' ++ trail') := by
    rw [normalizeCode_layout lead trail first rest hl ht hf hr, normalizeCode_layout lead' trail' first rest' hl' ht' hf hr',
      hsame]
  have hne : ∀ (l t : PyStr) r, l ++ layout first r ++ t ≠ [] := by
    intro l t r h
    unfold layout at h
    simp only [List.append_eq_nil_iff] at h
    exact hf.1 h.1.2.1
  exact ⟨metar_congr db clock a _ _ (hne _ _ _) (hne _ _ _) h, taf_congr db clock a _ _ (hne _ _ _) (hne _ _ _) h⟩

/-- The reports store the cleaned-up text. -/
theorem metar_rawCode {db : Database} {clock : Clock} {code : PyStr} {a : Args} {r : Metar}
    (h : Metar.new db clock code a = .ok r) : r.rawCode = normalizeCode code := by
  obtain ⟨t0, time, r1, un, r2, -, -, -, h2, hf, h3, rfl, -⟩ := Metar.new_ok h
  have hgo : ∀ ts (x y : Metar), Metar.trendsGo ts x = .ok y → y.rawCode = x.rawCode := by
    intro ts
    induction ts with
    | nil => intro x y h; cases h; rfl
    | cons t ts ih =>
      intro x y h
      unfold Metar.trendsGo at h
      split at h
      · simp only [bind_ok] at h
        obtain ⟨z, hz, h⟩ := h
        rw [ih z y h]
        simp only [Metar.handleWeatherTrend, bind_ok, pure_ok] at hz
        obtain ⟨_, _, _, _, rfl⟩ := hz
        rfl
      · exact ih x y h
  have := hgo _ _ _ h3
  show r2.rawCode = _
  rw [this]
  exact hf.rawCode

theorem taf_rawCode {db : Database} {clock : Clock} {code : PyStr} {a : Args} {r : Taf}
    (h : Taf.new db clock code a = .ok r) : r.rawCode = normalizeCode code := by
  obtain ⟨time, v, r1, un, r2, -, -, -, h2, hf, h3, rfl, -⟩ := Taf.new_ok h
  have hgo : ∀ ts (x y : Taf), Taf.changesGo ts x = .ok y → y.rawCode = x.rawCode := by
    intro ts
    induction ts with
    | nil => intro x y h; cases h; rfl
    | cons t ts ih =>
      intro x y h
      unfold Taf.changesGo at h
      split at h
      · simp only [bind_ok] at h
        obtain ⟨z, hz, h⟩ := h
        rw [ih z y h]
        simp only [Taf.handleChange, bind_ok, pure_ok] at hz
        obtain ⟨_, _, _, _, rfl⟩ := hz
        rfl
      · exact ih x y h
  have := hgo _ _ _ h3
  show r2.rawCode = _
  rw [this]
  exact hf.rawCode

/-- C01. Whatever separates and surrounds the words, the code of the report is the words joined by
single blanks. -/
theorem C01_layout (db : Database) (clock : Clock) (a : Args) (lead trail first : PyStr)
    (rest : List (PyStr × PyStr)) (hl : White lead) (ht : White trail) (hf : Word first)
    (hr : ∀ p ∈ rest, Separator p.1 ∧ Word p.2) :
    (∀ r, Metar.new db clock (lead ++ layout first rest ++ trail) a = .ok r →
      r.rawCode = join [32] (first :: rest.map (·.2))) ∧
    (∀ r, Taf.new db clock (lead ++ layout first rest ++ trail) a = .ok r →
      r.rawCode = join [32] (first :: rest.map (·.2))) := by
  rw [← normalizeCode_layout lead trail first rest hl ht hf hr]
  exact ⟨fun r h => metar_rawCode h, fun r h => taf_rawCode h⟩

/-- C02. The report code never contains the end-of-message sign. -/
theorem C02_no_equals (db : Database) (clock : Clock) (code : PyStr) (a : Args) :
    (∀ r, Metar.new db clock code a = .ok r → 61 ∉ r.rawCode) ∧
      (∀ r, Taf.new db clock code a = .ok r → 61 ∉ r.rawCode) := by
  have : 61 ∉ normalizeCode code := by
    rw [normalizeCode_eq]; simp
  exact ⟨fun r h => by rw [metar_rawCode h]; exact this, fun r h => by rw [taf_rawCode h]; exact this⟩

theorem blanks_snoc (s : PyStr) (c : Nat) (hc : isSpace c = false) :
    blanks (s ++ [c]) = blanks s ++ [c] := by
  refine runs_induction (P := fun s => blanks (s ++ [c]) = blanks s ++ [c]) ?_ ?_ ?_ s
  · rw [blanks_nil, List.nil_append, blanks_cons hc, blanks_nil]
  · intro a t ha ih
    rw [List.cons_append, blanks_cons ha, blanks_cons ha, ih]; rfl
  · intro w rest h0 hw hr ih
    rw [List.append_assoc, blanks_run h0 hw, ih, blanks_run h0 hw hr, List.append_assoc]
    intro d hd
    cases rest with
    | nil => simp at hd; subst hd; exact hc
    | cons e t => simp at hd; subst hd; exact hr e rfl

/-- C02. A trailing end-of-message sign makes no difference to a text that does not end in white
space: same report, same exception. -/
theorem C02_trailing_equals (db : Database) (clock : Clock) (code : PyStr) (a : Args)
    (hne : code ≠ []) (hl : ∀ c, code.getLast? = some c → isSpace c = false) :
    Metar.new db clock (code ++ [61]) a = Metar.new db clock code a ∧
      Taf.new db clock (code ++ [61]) a = Taf.new db clock code a := by
  have h61 : isSpace 61 = false := by decide
  have h : normalizeCode (code ++ [61]) = normalizeCode code := by
    rw [normalizeCode_eq, normalizeCode_eq]
    have hlast : ∀ s : PyStr, (∀ c, s.getLast? = some c → isSpace c = false) → rstrip s = s := by
      intro s hs
      unfold rstrip
      rw [dropWhile_id (by simpa using hs), List.reverse_reverse]
    have hls : ∀ s : PyStr, (∀ c, s.getLast? = some c → isSpace c = false) →
        ∀ c, (lstrip s).getLast? = some c → isSpace c = false := by
      intro s hs c hc
      refine hs c ?_
      have hsuf : lstrip s <:+ s := List.dropWhile_suffix _
      obtain ⟨t, ht⟩ := hsuf
      rw [← ht, List.getLast?_append, hc]; rfl
    have e1 : strip code = lstrip code := hlast _ (hls code hl)
    have e2 : strip (code ++ [61]) = lstrip code ++ [61] := by
      have : lstrip (code ++ [61]) = lstrip code ++ [61] := by
        unfold lstrip
        rw [List.dropWhile_append]
        split
        · next he =>
          have := List.isEmpty_iff.1 he
          rw [this]
          simp [h61]
        · rfl
      unfold strip
      rw [this]
      apply hlast
      intro c hc
      rw [List.getLast?_concat] at hc
      cases hc
      exact h61
    rw [e1, e2, blanks_snoc _ _ h61, List.filter_append]
    simp
  exact ⟨metar_congr db clock a _ _ (by simp) hne h, taf_congr db clock a _ _ (by simp) hne h⟩

example : normalizeCode py!"SCEL 10KM=" = py!"SCEL 10KM" ∧ normalizeCode py!"SCEL 10KM =" = py!"SCEL 10KM " := by
  decide +kernel

/-- A tidy text is left as it is. -/
theorem blanks_tidy (s : PyStr) : Tidy s → blanks s = s := by
  refine runs_induction (P := fun s => Tidy s → blanks s = s) ?_ ?_ ?_ s
  · intro _; exact blanks_nil
  · intro c t hc ih ht
    rw [blanks_cons hc, ih]
    refine ⟨fun h => ht.1 (by simp [h]), fun h => ht.2.1 (by simp [h]), ?_⟩
    intro pre a b post h
    exact ht.2.2 (c :: pre) a b post (by rw [h]; rfl)
  · intro w rest h0 hw hr ih ht
    rw [blanks_run h0 hw hr, ih]
    · congr 1
      match w, h0, hw, ht with
      | [c], _, _, ht =>
        have h1 : c ≠ 10 := fun h => ht.1 (by simp [h])
        have h2 : c ≠ 9 := fun h => ht.2.1 (by simp [h])
        simp [squeeze, h1, h2]
      | a :: b :: t, _, hw, ht =>
        exact absurd ⟨hw a (by simp), hw b (by simp)⟩ (ht.2.2 [] a b (t ++ rest) rfl)
    · refine ⟨fun h => ht.1 (by simp [h]), fun h => ht.2.1 (by simp [h]), ?_⟩
      intro pre a b post h
      exact ht.2.2 (w ++ pre) a b post (by rw [h]; simp)

/-- A tidy and trimmed text without the end-of-message sign is not changed by the clean-up. -/
theorem normalizeCode_tidy {s : PyStr} (ht : Tidy s) (hr : Trimmed s) (h : 61 ∉ s) :
    normalizeCode s = s := by
  rw [normalizeCode_eq, strip_id hr.1 hr.2, blanks_tidy _ ht]
  apply List.filter_eq_self.2
  intro c hc
  simp only [ne_eq, decide_eq_true_eq]
  rintro rfl
  exact h hc

/-- For a text without the end-of-message sign, the cleaned-up text is tidy and trimmed, and it is
a fixed point of the clean-up. -/
theorem normalizeCode_normal_form (code : PyStr) (h : 61 ∉ code) :
    Tidy (normalizeCode code) ∧ Trimmed (normalizeCode code) ∧
      normalizeCode (normalizeCode code) = normalizeCode code := by
  have hmem : ∀ s c, c ∈ blanks s → c = 32 ∨ c ∈ s := by
    intro s
    refine runs_induction (P := fun s => ∀ c, c ∈ blanks s → c = 32 ∨ c ∈ s) ?_ ?_ ?_ s
    · simp [blanks_nil]
    · intro a t ha ih c hc
      rw [blanks_cons ha] at hc
      rcases List.mem_cons.1 hc with rfl | hc
      · simp
      · rcases ih c hc with h | h
        · exact Or.inl h
        · right; simp [h]
    · intro w rest h0 hw hr ih c hc
      rw [blanks_run h0 hw hr, List.mem_append] at hc
      rcases hc with hc | hc
      · unfold squeeze at hc
        split at hc
        · left; simpa using hc
        · right; simp [hc]
      · rcases ih c hc with h | h
        · exact Or.inl h
        · right; simp [h]
  have hno : 61 ∉ blanks (strip code) := by
    intro hc
    rcases hmem _ _ hc with h' | h'
    · cases h'
    · exact h (strip_mem h')
  have e : normalizeCode code = blanks (strip code) := by
    rw [normalizeCode_eq]
    apply List.filter_eq_self.2
    intro c hc
    simp only [ne_eq, decide_eq_true_eq]
    rintro rfl
    exact hno hc
  have htrim : Trimmed (blanks (strip code)) :=
    ⟨blanks_head (strip_head code), blanks_last (strip_last code)⟩
  have htidy : ∀ s, Tidy (blanks s) := by
    intro s
    refine ⟨(blanks_no_newline s).1, (blanks_no_newline s).2, ?_⟩
    refine runs_induction (P := fun s => ∀ pre a b post, blanks s = pre ++ a :: b :: post →
      ¬ (isSpace a = true ∧ isSpace b = true)) ?_ ?_ ?_ s
    · intro pre a b post h
      rw [blanks_nil] at h
      simp at h
    · intro c t hc ih pre a b post h
      rw [blanks_cons hc] at h
      cases pre with
      | nil =>
        simp only [List.nil_append, List.cons.injEq] at h
        rw [← h.1, hc]; simp
      | cons p pre =>
        simp only [List.cons_append, List.cons.injEq] at h
        exact ih pre a b post h.2
    · intro w rest h0 hw hr ih pre a b post h
      obtain ⟨x, hx, _⟩ := squeeze_single h0 hw
      rw [blanks_run h0 hw hr, hx] at h
      cases pre with
      | nil =>
        simp only [List.cons_append, List.nil_append, List.cons.injEq] at h
        have := blanks_head hr b (by rw [h.2]; rfl)
        rw [this]; simp
      | cons p pre =>
        simp only [List.cons_append, List.nil_append, List.cons.injEq] at h
        exact ih pre a b post h.2
  rw [e]
  exact ⟨htidy _, htrim, normalizeCode_tidy (htidy _) htrim hno⟩

/-- C03. The code of a report whose text has no end-of-message sign is tidy and trimmed. -/
theorem C03_normal_form (db : Database) (clock : Clock) (code : PyStr) (a : Args) (h : 61 ∉ code) :
    (∀ r, Metar.new db clock code a = .ok r → Tidy r.rawCode ∧ Trimmed r.rawCode) ∧
      (∀ r, Taf.new db clock code a = .ok r → Tidy r.rawCode ∧ Trimmed r.rawCode) := by
  have hn := normalizeCode_normal_form code h
  exact ⟨fun r hr => by rw [metar_rawCode hr]; exact ⟨hn.1, hn.2.1⟩,
    fun r hr => by rw [taf_rawCode hr]; exact ⟨hn.1, hn.2.1⟩⟩

/-- C03. Parsing the code of a report again gives the same report (with white space alone the code is
empty, which is refused). -/
theorem C03_reparse (db : Database) (clock : Clock) (code : PyStr) (a : Args) (h : 61 ∉ code) :
    (∀ r, Metar.new db clock code a = .ok r → r.rawCode ≠ [] → Metar.new db clock r.rawCode a = .ok r) ∧
      (∀ r, Taf.new db clock code a = .ok r → r.rawCode ≠ [] → Taf.new db clock r.rawCode a = .ok r) := by
  have e := (normalizeCode_normal_form code h).2.2
  have hc : normalizeCode code ≠ [] → code ≠ [] := by
    rintro hne rfl
    exact hne (by decide +kernel)
  constructor
  · intro r hr hne
    rw [metar_rawCode hr] at hne ⊢
    rw [metar_congr db clock a _ _ hne (hc hne) e, hr]
  · intro r hr hne
    rw [taf_rawCode hr] at hne ⊢
    rw [taf_congr db clock a _ _ hne (hc hne) e, hr]

/-- C03. Whatever the text, the code of a report has neither newline nor tab. -/
theorem C03_no_newline (db : Database) (clock : Clock) (code : PyStr) (a : Args) :
    (∀ r, Metar.new db clock code a = .ok r → 10 ∉ r.rawCode ∧ 9 ∉ r.rawCode) ∧
      (∀ r, Taf.new db clock code a = .ok r → 10 ∉ r.rawCode ∧ 9 ∉ r.rawCode) := by
  have hn : 10 ∉ normalizeCode code ∧ 9 ∉ normalizeCode code := by
    rw [normalizeCode_eq]
    have := blanks_no_newline (strip code)
    constructor <;> (intro h; simp at h; first | exact this.1 h | exact this.2 h)
  exact ⟨fun r h => by rw [metar_rawCode h]; exact hn, fun r h => by rw [taf_rawCode h]; exact hn⟩

/-- C03. With an end-of-message sign inside the text, the code is not a normal form. -/
theorem C03_equals_counterexample :
    normalizeCode py!"A = B" = py!"A  B" ∧ normalizeCode (normalizeCode py!"A = B") ≠ normalizeCode py!"A = B" := by
  decide +kernel

example : (61 : Nat) ∉ py!" SCEL\n\t 10KM " ∧ normalizeCode py!" SCEL\n\t 10KM " = py!"SCEL 10KM" := by
  decide +kernel

end Verif.Props
