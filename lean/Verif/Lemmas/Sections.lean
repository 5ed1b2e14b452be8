import Verif.Lemmas.Cut
import Verif.Lemmas.Report
import Verif.Lemmas.Blanks

/-
The sections of a METAR.
-/

namespace Verif
open Spec

/-! ### Joined words -/

theorem join_cons_ne {sep w : PyStr} {ws : List PyStr} (h : ws ≠ []) :
    join sep (w :: ws) = w ++ sep ++ join sep ws := by
  cases ws with
  | nil => exact absurd rfl h
  | cons v vs => rfl

theorem join_append {sep : PyStr} {xs ys : List PyStr} (hx : xs ≠ []) (hy : ys ≠ []) :
    join sep (xs ++ ys) = join sep xs ++ sep ++ join sep ys := by
  induction xs with
  | nil => exact absurd rfl hx
  | cons x xs ih =>
    cases xs with
    | nil => exact join_cons_ne hy
    | cons z zs =>
      have ih := ih (by simp)
      simp only [List.cons_append, join] at ih ⊢
      rw [ih]
      simp only [List.append_assoc]

theorem join_flatten {sep : PyStr} {wss : List (List PyStr)} (h : ∀ ws ∈ wss, ws ≠ []) :
    join sep (wss.map (join sep)) = join sep wss.flatten := by
  induction wss with
  | nil => rfl
  | cons ws wss ih =>
    have ih := ih fun x hx => h x (by simp [hx])
    cases wss with
    | nil => simp [join]
    | cons v vs =>
      have hv : (v :: vs).flatten ≠ [] := by
        have := h v (by simp)
        simp [this]
      have e : (ws :: v :: vs).flatten = ws ++ (v :: vs).flatten := rfl
      rw [List.map_cons, join_cons_ne (by simp), ih, e, join_append (h ws (by simp)) hv]

theorem mem_join {sep : PyStr} {ws : List PyStr} {c : Nat} (h : c ∈ join sep ws) :
    c ∈ sep ∨ ∃ w ∈ ws, c ∈ w := by
  induction ws with
  | nil => simp [join] at h
  | cons w ws ih =>
    cases ws with
    | nil => exact .inr ⟨w, by simp, h⟩
    | cons v vs =>
      simp only [join, List.mem_append] at h
      rcases h with (h | h) | h
      · exact .inr ⟨w, by simp, h⟩
      · exact .inl h
      · rcases ih h with h | ⟨x, hx, h⟩
        · exact .inl h
        · exact .inr ⟨x, by simp at hx ⊢; exact .inr hx, h⟩

theorem append_blank_inj {w pre post rest : PyStr} (hw : 32 ∉ w)
    (h : w ++ 32 :: rest = pre ++ 32 :: post) :
    (pre = w ∧ post = rest) ∨ ∃ pre', pre = w ++ 32 :: pre' ∧ rest = pre' ++ 32 :: post := by
  induction w generalizing pre with
  | nil =>
    cases pre with
    | nil =>
      simp only [List.nil_append, List.cons.injEq, true_and] at h
      exact .inl ⟨rfl, h.symm⟩
    | cons a pre =>
      simp only [List.nil_append, List.cons_append, List.cons.injEq] at h
      exact .inr ⟨pre, by rw [h.1]; rfl, h.2⟩
  | cons c w ih =>
    simp only [List.mem_cons, not_or] at hw
    cases pre with
    | nil =>
      simp only [List.nil_append, List.cons_append, List.cons.injEq] at h
      exact absurd h.1.symm hw.1
    | cons a pre =>
      simp only [List.cons_append, List.cons.injEq] at h
      obtain ⟨rfl, h⟩ := h
      rcases ih hw.2 h with ⟨rfl, rfl⟩ | ⟨pre', rfl, rfl⟩
      · exact .inl ⟨rfl, rfl⟩
      · exact .inr ⟨pre', rfl, rfl⟩

/-- Where words are joined, only a later word can open. -/
theorem holds_join {kws : List PyStr} (hk : ∀ kw ∈ kws, Plain kw) {w : PyStr} {ws : List PyStr}
    (hw : 32 ∉ w) (hws : ∀ v ∈ ws, 32 ∉ v) (h : Holds kws (join [32] (w :: ws))) :
    ∃ v ∈ ws, Opens kws v := by
  obtain ⟨pre, post, he, ho⟩ := h
  induction ws generalizing w pre with
  | nil =>
    simp only [join] at he
    rw [he] at hw
    simp at hw
  | cons v vs ih =>
    simp only [join, List.append_assoc, List.singleton_append] at he
    rcases append_blank_inj hw he with ⟨-, rfl⟩ | ⟨pre', -, he⟩
    · refine ⟨v, by simp, ?_⟩
      cases vs with
      | nil => exact ho
      | cons x xs =>
        simp only [join, List.append_assoc, List.singleton_append] at ho
        exact (opens_front fun kw hkw => (hk kw hkw).no_blank).1 ho
    · obtain ⟨x, hx, ho⟩ := ih (hws v (by simp)) (fun x hx => hws x (by simp [hx])) pre' he
      exact ⟨x, by simp [hx], ho⟩

theorem opens_join {kws : List PyStr} (hk : ∀ kw ∈ kws, Plain kw) {w : PyStr} {ws : List PyStr} :
    Opens kws (join [32] (w :: ws)) ↔ Opens kws w := by
  cases ws with
  | nil => exact Iff.rfl
  | cons x xs =>
    simp only [join, List.append_assoc, List.singleton_append]
    exact opens_front fun kw hkw => (hk kw hkw).no_blank

theorem metarWords_plain : ∀ kw ∈ metarWords, Plain kw := by decide +kernel
theorem trendWords_plain : ∀ kw ∈ trendWords, Plain kw := by decide +kernel
theorem tafWords_plain : ∀ kw ∈ tafWords, Plain kw := by decide +kernel
theorem rmk_plain : ∀ kw ∈ [py!"RMK"], Plain kw := by decide +kernel

theorem Spec.Unbarred.no_blank {w : PyStr} (h : Unbarred w) : 32 ∉ w := fun hx =>
  absurd (h.1.2 32 hx).1 (by decide)

/-! ### Sorting the pieces -/

def isTrend (p : PyStr) : Bool := decide (Opens trendWords p)
def isRemark (p : PyStr) : Bool := !isTrend p && decide (Opens [py!"RMK"] p)
def isBody (p : PyStr) : Bool := !isTrend p && !decide (Opens [py!"RMK"] p)

theorem isTrend_iff (p : PyStr) : isTrend p = true ↔
    (startsWith p py!"TEMPO" = true ∨ startsWith p py!"BECMG" = true ∨ startsWith p py!"NOSIG" = true) := by
  rw [isTrend, decide_eq_true_eq]
  simp only [Opens, trendWords, List.mem_cons, List.not_mem_nil, or_false,
    startsWith, List.isPrefixOf_iff_prefix]
  constructor
  · rintro ⟨kw, rfl | rfl | rfl, h⟩
    · exact .inr (.inr h)
    · exact .inl h
    · exact .inr (.inl h)
  · rintro (h | h | h)
    · exact ⟨_, .inr (.inl rfl), h⟩
    · exact ⟨_, .inr (.inr rfl), h⟩
    · exact ⟨_, .inl rfl, h⟩

theorem opens_one {kw p : PyStr} : Opens [kw] p ↔ startsWith p kw = true := by
  simp [Opens, startsWith, List.isPrefixOf_iff_prefix]

/-- The sections: the last piece that opens nothing, the trends, the last piece of remarks. -/
theorem metarSectionsGo_eq (ps : List PyStr) (b t r : PyStr) :
    metarSectionsGo ps b t r =
      ((ps.filter isBody).getLast?.getD b, t ++ (ps.filter isTrend).flatMap (· ++ [32]),
       (ps.filter isRemark).getLast?.getD r) := by
  induction ps generalizing b t r with
  | nil => simp [metarSectionsGo]
  | cons p ps ih =>
    have getD_cons : ∀ (x d : PyStr) (l : List PyStr), ((x :: l).getLast?).getD d = l.getLast?.getD x := by
      intro x d l
      rw [List.getLast?_cons]
      rfl
    rw [metarSectionsGo]
    by_cases ht : isTrend p = true
    · rw [if_pos ((isTrend_iff p).1 ht), ih]
      simp [isBody, isRemark, ht]
    · rw [if_neg (fun h => ht ((isTrend_iff p).2 h))]
      by_cases hr : startsWith p py!"RMK" = true
      · rw [if_pos hr, ih]
        simp only [isBody, isRemark, opens_one, List.filter_cons, ht, hr]
        simp [getD_cons]
      · rw [if_neg hr, ih]
        simp only [isBody, isRemark, opens_one, List.filter_cons, ht, hr]
        simp [getD_cons]

theorem metarSections_eq (raw : PyStr) :
    metarSections raw =
      (((splitC 124 (cut metarWords raw)).filter isBody).getLast?.getD [],
       strip (((splitC 124 (cut metarWords raw)).filter isTrend).flatMap (· ++ [32])),
       ((splitC 124 (cut metarWords raw)).filter isRemark).getLast?.getD []) := by
  unfold metarSections
  rw [splitSentence_left (kws := [py!"NOSIG", py!"TEMPO", py!"BECMG", py!"RMK"])
    (by decide +kernel), metarSectionsGo_eq]
  rfl

/-- The sections of a report are those of its code. -/
theorem Metar.new_sections {db : Database} {clock : Clock} {code : PyStr} {a : Args} {r : Metar}
    (h : Metar.new db clock code a = .ok r) :
    r.body = (metarSections (normalizeCode code)).1 ∧
    r.trend = (metarSections (normalizeCode code)).2.1 ∧
    r.remark = (metarSections (normalizeCode code)).2.2 ∧ r.rawCode = normalizeCode code := by
  obtain ⟨t0, time, asg, r1, -, -, -, -, -, -, -, -, -, -, e4, e5, -⟩ := Metar.new_reading h
  unfold Metar.body Metar.trend Metar.remark
  rw [e5]
  exact ⟨rfl, rfl, rfl, e4⟩

end Verif
