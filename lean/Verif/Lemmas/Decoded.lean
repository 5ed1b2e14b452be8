import Verif.Lemmas.Report
import Verif.Lemmas.Chars
import Verif.Lemmas.Forms
import Verif.Lemmas.Str
import Verif.Lemmas.Blanks
import Verif.Spec.Report

/-
The readings of a report in terms of the groups decoded in its body.
-/

namespace Verif

/-- All the newline-free texts a pattern accepts are in a list of words. -/
theorem RE.words {r : RE} (ws : List PyStr)
    (hb : ((r.paths (0, [])).isSome && r.paths0.all fun x => endsWithEos x.1 && capsInside x) = true)
    (hw : ∀ x ∈ r.paths0, ∀ ks ∈ expand (pathCls x.1), ∃ w ∈ ws, ks = litShape w)
    {s : PyStr} {m : Match} (h : r.match s = some m) (hn : 10 ∉ s) : s ∈ ws := by
  obtain ⟨x, hx, _, _, hsh, _, _⟩ := RE.match_whole hb h hn
  obtain ⟨ks, hks, hsh⟩ := expand_sound hsh
  obtain ⟨w, hw, rfl⟩ := hw x hx ks hks
  rw [hasShape_lit_iff.1 hsh]
  exact hw

theorem shown_eq (g : PyStr) : Spec.shown g = replace g py!"_" py!" " :=
  (replace_char_char g 95 32).symm

theorem shown_shown (g : PyStr) : Spec.shown (Spec.shown g) = Spec.shown g := by
  unfold Spec.shown
  rw [List.map_map]
  congr 1
  funext c
  simp only [Function.comp]
  split <;> simp_all

theorem groupCode_some (g : PyStr) : groupCode (some g) = some (Spec.shown g) := by
  rw [shown_eq]; rfl

theorem normalizeCode_no_newline (code : PyStr) : 10 ∉ normalizeCode code := by
  unfold normalizeCode
  refine not_mem_replace (by decide) ?_ (by decide)
  have := (blanks_no_newline (strip code)).1
  exact this

/-! ### The decoded groups of the four kinds of text -/

theorem Metar.new_decodes {db : Database} {clock : Clock} {code : PyStr} {a : Args} {r : Metar}
    (h : Metar.new db clock code a = .ok r) {c : List (PyStr × Nat)}
    (hc : Spec.Decodes (Metar.handlers db (clock 2) a) (Spec.metarGroups r.body) c) :
    ∃ time, Time.fromMetar (clock 1) none a.year a.month = .ok time ∧ Ordered c ∧
      Metar.Reading db (clock 2) a c (Metar.start (normalizeCode code) time) r ∧
      ∀ g i, (g, i) ∈ c → 10 ∉ g := by
  obtain ⟨t0, time, asg, r1, -, e0, e1, e2, -, e3, e4, -, -, -, -, e5, -⟩ := Metar.new_reading h
  have hb : Metar.bodyText (normalizeCode code) =
      sanitizeWindshear (sanitizeVisibility r.body) := by
    unfold Metar.body
    rw [e5]
    rfl
  have he : c = Spec.consumed (splitC 32 (Metar.bodyText (normalizeCode code))) asg := by
    rw [Spec.metarGroups, ← hb] at hc
    exact ((decodes_iff _ _ _).1 hc).trans ((decodes_iff _ _ _).1 ⟨asg, e1, e2, rfl⟩).symm
  rw [← he] at e3 e4
  refine ⟨time, e0, e3, e4, fun g i hg => ?_⟩
  exact not_mem_splitC (Metar.bodyText_no_newline (normalizeCode_no_newline code)) g
    (consumed_mem (he ▸ hg))

theorem Taf.new_decodes {db : Database} {clock : Clock} {code : PyStr} {a : Args} {r : Taf}
    (h : Taf.new db clock code a = .ok r) {c : List (PyStr × Nat)}
    (hc : Spec.Decodes (Taf.handlers db (clock 1) a) (Spec.bodyGroups r.body) c) :
    ∃ time v, Time.new (clock 0) none none none none none none = .ok time ∧
      Valid.fromTaf none time.time = .ok v ∧ Ordered c ∧
      Taf.Reading db (clock 1) a c (Taf.start (normalizeCode code) time v) r ∧
      ∀ g i, (g, i) ∈ c → 10 ∉ g := by
  obtain ⟨time, v, asg, r1, e0, e00, e1, e2, -, e3, e4, -, -, -, -, -, e5, -⟩ := Taf.new_reading h
  have hb : Taf.bodyText (normalizeCode code) = sanitizeVisibility r.body := by rw [e5]; rfl
  have he : c = Spec.consumed (splitC 32 (Taf.bodyText (normalizeCode code))) asg := by
    rw [Spec.bodyGroups, ← hb] at hc
    exact ((decodes_iff _ _ _).1 hc).trans ((decodes_iff _ _ _).1 ⟨asg, e1, e2, rfl⟩).symm
  rw [← he] at e3 e4
  refine ⟨time, v, e0, e00, e3, e4, fun g i hg => ?_⟩
  exact not_mem_splitC (Taf.bodyText_no_newline (normalizeCode_no_newline code)) g
    (consumed_mem (he ▸ hg))

theorem Metar.trend_decodes {db : Database} {clock : Clock} {code : PyStr} {a : Args} {r : Metar}
    (h : Metar.new db clock code a = .ok r) {p : ChangePeriod} (hp : p ∈ r.weatherTrends.list)
    {text : PyStr} (ht : p.code = some text) {c : List (PyStr × Nat)}
    (hc : Spec.Decodes ChangePeriod.handlers (Spec.bodyGroups text) c) :
    ∃ ind p1, TrendIndicator.new none r.time.time = .ok ind ∧ Ordered c ∧
      Spec.Runs ChangePeriod.handlers c (ChangePeriod.start text r.time.time ind) (.ok p1) ∧
      p = { p1 with unparsed := p.unparsed } ∧
      ChangePeriod.Reading c (ChangePeriod.start text r.time.time ind) p ∧
      p.time = r.time.time ∧ ∀ g i, (g, i) ∈ c → 10 ∉ g := by
  obtain ⟨t0, time, asg0, r1, -, -, -, -, -, -, -, e, -⟩ := Metar.new_reading h
  obtain ⟨t, htm, hnew⟩ := e.right p hp
  obtain ⟨ind, asg, p1, e0, e1, e2, e3, e4, e5, e6, e7, e8⟩ := ChangePeriod.new_reading hnew
  have ht' : text = replace t py!"_" py!" " := by
    have := ht.symm.trans e7
    simpa using this
  have hst : ChangePeriod.start t r.time.time ind = ChangePeriod.start text r.time.time ind := by
    unfold ChangePeriod.start
    rw [ht', ← shown_eq, ← shown_eq, shown_shown]
  rw [← ht'] at e1 e2 e3 e4 e5
  rw [hst] at e3 e5
  have he : c = Spec.consumed (splitC 32 (sanitizeVisibility text)) asg := by
    rw [(decodes_iff _ _ _).1 hc]
    exact ((decodes_iff _ _ _).1 ⟨asg, e1, e2, rfl⟩).symm
  subst he
  refine ⟨ind, p1, e0, e4, e3, ?_, e5, e8, fun g i hg => ?_⟩
  · rw [e6]
  · refine not_mem_splitC ?_ g (consumed_mem hg)
    refine not_mem_sanitizeVisibility (by decide) (by decide) ?_
    rw [ht']
    exact not_mem_replace (by decide) (Metar.trendParts_no_newline (normalizeCode_no_newline code) t
      (List.mem_filter.1 htm).1) (by decide)

theorem Taf.change_decodes {db : Database} {clock : Clock} {code : PyStr} {a : Args} {r : Taf}
    (h : Taf.new db clock code a = .ok r) {x : ChangeForecasted} (hx : x ∈ r.changes.list)
    {c : List (PyStr × Nat)}
    (hc : Spec.Decodes ChangeForecasted.handlers (Spec.changeGroups x.code) c) :
    ∃ p1, Ordered c ∧
      Spec.Runs ChangeForecasted.handlers c (ChangeForecasted.start x.code r.valid) (.ok p1) ∧
      SameData { p1 with unparsed := x.unparsed } x ∧
      ChangeForecasted.Reading c (ChangeForecasted.start x.code r.valid) x ∧
      x.valid = r.valid ∧ ∀ g i, (g, i) ∈ c → 10 ∉ g := by
  obtain ⟨time, v, asg0, r1, -, -, -, -, -, -, -, -, e, -⟩ := Taf.new_reading h
  obtain ⟨t, htm, x0, hnew, i, s, rfl, hi1, hi2, hi3⟩ := e.right x hx
  obtain ⟨asg, p1, e1, e2, e3, e4, e5, e6, e7, e8⟩ := ChangeForecasted.new_reading hnew
  simp only at hc ⊢
  have hst : ChangeForecasted.start t r.valid = ChangeForecasted.start x0.code r.valid := by
    unfold ChangeForecasted.start
    rw [e7, ← shown_eq, ← shown_eq, shown_shown]
  have htx : ChangeForecasted.text t = sanitizeVisibility (sanitizeChangeIndicator x0.code) := by
    rw [e7]; rfl
  rw [htx] at e1 e2 e3 e4 e5
  rw [hst] at e3 e5
  have he : c = Spec.consumed (splitC 32 (sanitizeVisibility (sanitizeChangeIndicator x0.code))) asg := by
    rw [(decodes_iff _ _ _).1 hc]
    exact ((decodes_iff _ _ _).1 ⟨asg, e1, e2, rfl⟩).symm
  subst he
  refine ⟨p1, e4, e3, ⟨i, s, ?_, by rw [hi1, e6], by rw [hi2, e6], by rw [e6] at hi3; exact hi3⟩, ⟨e5.1, e5.2, e5.3, e5.4⟩, e8, fun g i hg => ?_⟩
  · rw [e6]
  · refine not_mem_splitC ?_ g (consumed_mem hg)
    refine not_mem_sanitizeVisibility (by decide) (by decide) ?_
    refine not_mem_sanitizeChangeIndicator (by decide) ?_
    rw [e7]
    exact not_mem_replace (by decide) ((tafSections_no_newline (normalizeCode_no_newline code)).2 t
      (List.mem_filter.1 htm).1) (by decide)

end Verif
