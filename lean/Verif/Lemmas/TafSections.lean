import Verif.Lemmas.Sections
import Verif.Lemmas.Decoded
import Verif.Lemmas.Sanitize

/-
The sections of a TAF.
-/

namespace Verif
open Spec

/-! ### `str.replace` -/

theorem replaceGo_skip (old new : PyStr) (k : Nat) (s : PyStr) :
    replaceGo old new k s = replaceGo old new 0 (s.drop k) := by
  induction k generalizing s with
  | zero => simp
  | succ k ih =>
    cases s with
    | nil => rfl
    | cons c t => rw [List.drop_succ_cons, ← ih]; rfl

theorem replace_nil {old new : PyStr} (h : old ≠ []) : replace [] old new = [] := by
  unfold replace
  rw [if_neg h]
  rfl

theorem replace_hit {old new t : PyStr} (h : old ≠ []) :
    replace (old ++ t) old new = new ++ replace t old new := by
  unfold replace
  rw [if_neg h, if_neg h]
  obtain ⟨c, u, rfl⟩ : ∃ c u, old = c :: u := by
    cases old with
    | nil => exact absurd rfl h
    | cons c u => exact ⟨c, u, rfl⟩
  rw [List.cons_append]
  conv => lhs; unfold replaceGo
  rw [if_pos (by rw [List.isPrefixOf_iff_prefix]; exact ⟨t, rfl⟩), replaceGo_skip]
  congr 2
  simp

theorem replace_miss {old new t : PyStr} {c : Nat} (h : ¬ old <+: c :: t) :
    replace (c :: t) old new = c :: replace t old new := by
  have h0 : old ≠ [] := by
    rintro rfl
    exact h List.nil_prefix
  unfold replace
  rw [if_neg h0, if_neg h0]
  conv => lhs; unfold replaceGo
  rw [if_neg (by rw [List.isPrefixOf_iff_prefix]; exact h)]

theorem replace_induction {old : PyStr} (h0 : old ≠ []) {P : PyStr → Prop} (nil : P [])
    (hit : ∀ t, P t → P (old ++ t)) (miss : ∀ c t, ¬ old <+: c :: t → P t → P (c :: t)) (s : PyStr) :
    P s := by
  generalize hn : s.length = n
  induction n using Nat.strongRecOn generalizing s with
  | ind n ih =>
    cases s with
    | nil => exact nil
    | cons c t =>
      by_cases hp : old <+: c :: t
      · obtain ⟨u, hu⟩ := hp
        rw [← hu]
        refine hit u (ih u.length ?_ u rfl)
        have := congrArg List.length hu
        have : 0 < old.length := by cases old <;> simp_all
        simp at *
        omega
      · exact miss c t hp (ih t.length (by simp at hn; omega) t rfl)

/-- Nothing to replace. -/
theorem replace_none {old new s : PyStr} (h : ∀ pre post, s ≠ pre ++ (old ++ post)) :
    replace s old new = s := by
  have h0 : old ≠ [] := by
    rintro rfl
    exact h [] s rfl
  induction s with
  | nil => exact replace_nil h0
  | cons c t ih =>
    rw [replace_miss, ih]
    · intro pre post e
      exact h (c :: pre) post (by rw [e]; rfl)
    · rintro ⟨u, hu⟩
      exact h [] u (by rw [← hu]; rfl)

theorem shown_append (a b : PyStr) : shown (a ++ b) = shown a ++ shown b := List.map_append

theorem shown_replace {old new : PyStr} (h0 : old ≠ []) (h : shown new = shown old) (s : PyStr) :
    shown (replace s old new) = shown s := by
  refine replace_induction h0 (P := fun s => shown (replace s old new) = shown s) ?_ ?_ ?_ s
  · rw [replace_nil h0]
  · intro t ih
    rw [replace_hit h0, shown_append, shown_append, ih, h]
  · intro c t hm ih
    rw [replace_miss hm]
    show _ :: shown _ = _ :: shown _
    rw [ih]

theorem replace_mem {old new s : PyStr} (h0 : old ≠ []) {c : Nat} (h : c ∈ replace s old new) :
    c ∈ s ∨ c ∈ new := by
  revert h
  refine replace_induction h0 (P := fun s => c ∈ replace s old new → c ∈ s ∨ c ∈ new) ?_ ?_ ?_ s
  · rw [replace_nil h0]; exact .inl
  · intro t ih h
    rw [replace_hit h0, List.mem_append] at h
    rcases h with h | h
    · exact .inr h
    · rcases ih h with h | h
      · exact .inl (List.mem_append_right _ h)
      · exact .inr h
  · intro d t hm ih h
    rw [replace_miss hm, List.mem_cons] at h
    rcases h with rfl | h
    · exact .inl (by simp)
    · rcases ih h with h | h
      · exact .inl (by simp [h])
      · exact .inr h

/-! ### The protection of the word after `TAF` -/

theorem taf_ne : py!"TAF_" ≠ [] := by simp

/-- A blank of the restored text is a blank of the text, or follows `TAF`. -/
theorem restore_blank {s pre post : PyStr} (h : replace s py!"TAF_" py!"TAF " = pre ++ 32 :: post) :
    py!"TAF" <:+ pre ∨ ∃ pre' post', s = pre' ++ 32 :: post' ∧ replace post' py!"TAF_" py!"TAF " = post := by
  revert pre post
  refine replace_induction taf_ne (P := fun s => ∀ {pre post},
    replace s py!"TAF_" py!"TAF " = pre ++ 32 :: post → py!"TAF" <:+ pre ∨ ∃ pre' post',
      s = pre' ++ 32 :: post' ∧ replace post' py!"TAF_" py!"TAF " = post) ?_ ?_ ?_ s
  · intro pre post h
    rw [replace_nil taf_ne] at h
    simp at h
  · intro t ih pre post h
    rw [replace_hit taf_ne] at h
    have h' : py!"TAF" ++ 32 :: replace t py!"TAF_" py!"TAF " = pre ++ 32 :: post := by simpa using h
    rcases append_blank_inj (by decide) h' with ⟨rfl, -⟩ | ⟨pre2, rfl, e⟩
    · exact .inl (List.suffix_refl _)
    · rcases ih e with hs | ⟨pre', post', rfl, hp⟩
      · exact .inl (hs.trans ⟨py!"TAF ", by simp⟩)
      · exact .inr ⟨py!"TAF_" ++ pre', post', by simp, hp⟩
  · intro c t hm ih pre post h
    rw [replace_miss hm] at h
    cases pre with
    | nil =>
      simp only [List.nil_append, List.cons.injEq] at h
      exact .inr ⟨[], t, by rw [h.1]; rfl, h.2⟩
    | cons d pre =>
      simp only [List.cons_append, List.cons.injEq] at h
      obtain ⟨rfl, h⟩ := h
      rcases ih h with hs | ⟨pre', post', rfl, hp⟩
      · exact .inl (hs.trans ⟨[c], by simp⟩)
      · exact .inr ⟨c :: pre', post', rfl, hp⟩

theorem restore_prefix {kw s : PyStr} (hk : 32 ∉ kw) (h : kw <+: replace s py!"TAF_" py!"TAF ") :
    kw <+: s := by
  revert kw
  refine replace_induction taf_ne (P := fun s => ∀ {kw : PyStr}, 32 ∉ kw →
    kw <+: replace s py!"TAF_" py!"TAF " → kw <+: s) ?_ ?_ ?_ s
  · intro kw _ h
    rwa [replace_nil taf_ne] at h
  · intro t _ kw hk h
    rw [replace_hit taf_ne] at h
    have h' : kw <+: py!"TAF" ++ 32 :: replace t py!"TAF_" py!"TAF " := by simpa using h
    exact ((prefix_front hk).1 h').trans ⟨95 :: t, by simp⟩
  · intro c t hm ih kw hk h
    rw [replace_miss hm] at h
    cases kw with
    | nil => exact List.nil_prefix
    | cons d kw =>
      rw [List.cons_prefix_cons] at h ⊢
      simp only [List.mem_cons, not_or] at hk
      exact ⟨h.1, ih hk.2 h.2⟩

/-! ### The indicator of a probable temporary change -/

theorem probable (s : PyStr) : UpTo probRule 5 s (sanitizeChangeIndicator s) :=
  sanProb_implements.loop (fun s => by
    unfold sanProbStep
    cases sanProbRE.search s <;> rfl) 5 s

/-- Only white space changes, and it becomes `_`. -/
theorem upTo_shown {n : Nat} {s t : PyStr} (h : UpTo probRule n s t)
    (hb : ∀ c ∈ s, isSpace c = true → c = 32) :
    shown t = shown s ∧ (124 ∉ s → 124 ∉ t) ∧ ∀ c ∈ t, isSpace c = true → c = 32 := by
  induction h with
  | stop => exact ⟨rfl, id, hb⟩
  | done => exact ⟨rfl, id, hb⟩
  | @step n s t u hf _ ih =>
    obtain ⟨pre, o, post, new, rfl, ⟨a, d, rfl, hd, ha, rfl⟩, rfl, -⟩ := hf
    have ha' : a = 32 := hb a (by simp) ha
    subst ha'
    have hd' : d = 51 ∨ d = 52 := by simpa using hd
    have key : shown (pre ++ (py!"PROB" ++ d :: py!"0_TEMPO" ++ post)) =
        shown (pre ++ (py!"PROB" ++ d :: py!"0" ++ 32 :: py!"TEMPO" ++ post)) := by
      simp only [shown_append, List.append_assoc]
      congr 2
    have hsp : ∀ c ∈ pre ++ (py!"PROB" ++ d :: py!"0_TEMPO" ++ post), isSpace c = true → c = 32 := by
      intro c hc hs
      simp only [List.mem_append, List.mem_cons, List.not_mem_nil, or_false] at hc
      rcases hc with hc | (hc | hc) | hc
      · exact hb c (by simp [hc]) hs
      · rcases hc with rfl | rfl | rfl | rfl <;> exact absurd hs (by decide)
      · rcases hc with rfl | rfl | rfl | rfl | rfl | rfl | rfl | rfl
        · rcases hd' with rfl | rfl <;> exact absurd hs (by decide)
        all_goals exact absurd hs (by decide)
      · exact hb c (by simp [hc]) hs
    obtain ⟨h1, h2, h3⟩ := ih hsp
    refine ⟨h1.trans key, fun hbar => h2 fun hc => ?_, h3⟩
    simp only [List.mem_append] at hc
    rcases hc with hc | (hc | hc) | hc
    · exact hbar (by simp [hc])
    · exact absurd hc (by decide)
    · rcases hd' with rfl | rfl <;> exact absurd hc (by decide)
    · exact hbar (by simp [hc])

/-! ### The sections -/

/-- The text that is cut. -/
def tafCut (raw : PyStr) : PyStr :=
  if startsWith (sanitizeChangeIndicator raw) py!"TAF" then
    replace (sanitizeChangeIndicator raw) py!"TAF " py!"TAF_"
  else sanitizeChangeIndicator raw

theorem tafSections_eq (raw : PyStr) : ∃ b cs, splitC 124 (cut tafWords (tafCut raw)) = b :: cs ∧
    tafSections raw = (replace b py!"TAF_" py!"TAF ", cs) := by
  cases h : splitC 124 (cut tafWords (tafCut raw)) with
  | nil => exact absurd h (splitC_ne _ _)
  | cons b cs =>
    refine ⟨b, cs, rfl, ?_⟩
    have h2 := splitSentence_left tafWords_plain (tafCut raw)
    rw [h] at h2
    unfold tafSections
    have h3 : (splitSentence (if startsWith (sanitizeChangeIndicator raw) py!"TAF" then
      replace (sanitizeChangeIndicator raw) py!"TAF " py!"TAF_" else sanitizeChangeIndicator raw)
      [py!"FM", py!"TEMPO", py!"BECMG", py!"PROB"] 0 .left) = b :: cs := h2
    simp only [h3]

theorem tafCut_shown {raw : PyStr} (hb : ∀ c ∈ raw, isSpace c = true → c = 32) (hbar : 124 ∉ raw) :
    shown (tafCut raw) = shown raw ∧ 124 ∉ tafCut raw := by
  obtain ⟨h1, h2, -⟩ := upTo_shown (probable raw) hb
  unfold tafCut
  split
  · rw [shown_replace (by simp) (by decide), h1]
    refine ⟨rfl, fun h => ?_⟩
    rcases replace_mem (by simp) h with h | h
    · exact h2 hbar h
    · exact absurd h (by decide)
  · exact ⟨h1, h2 hbar⟩

end Verif
