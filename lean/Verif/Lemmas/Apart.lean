import Verif.Lemmas.Forms
import Verif.Lemmas.Paths
import Verif.Model.Regexps

/-
Patterns that match no text in common, by checking the paths of the one against the other.
-/

namespace Verif

/-- No text has both shapes. -/
def disjShape : List CC → List CC → Bool
  | [], [] => false
  | a :: as, b :: bs => CC.test a b == some false || disjShape as bs
  | _, _ => true

theorem disjShape_sound {a b : List CC} (h : disjShape a b = true) {s : PyStr} (ha : HasShape a s)
    (hb : HasShape b s) : False := by
  induction a generalizing b s with
  | nil =>
    cases b with
    | nil => cases h
    | cons b bs =>
      obtain ⟨c, t, rfl, -, -⟩ := hb
      cases ha
  | cons k ks ih =>
    obtain ⟨c, t, rfl, hc, ht⟩ := ha
    cases b with
    | nil => cases hb
    | cons b bs =>
      obtain ⟨c', t', e, hc', ht'⟩ := hb
      obtain ⟨rfl, rfl⟩ := List.cons.inj e
      simp only [disjShape, Bool.or_eq_true, beq_iff_eq] at h
      rcases h with h | h
      · rw [CC.test_sound h hc] at hc'; cases hc'
      · exact ih h ht ht'

/-- All paths of the pattern end with `$`. -/
def RE.closed (r : RE) : Bool :=
  (r.paths (0, [])).isSome && r.paths0.all fun x => endsWithEos x.1 && capsInside x

/-- The pattern `q` matches no text that `r` matches along a path whose classes are not in `but`. -/
def RE.apart (r q : RE) (but : List (List CC)) : Bool :=
  r.closed && r.paths0.all fun x => but.contains (pathCls x.1) ||
    (q.chkNone (pathCls x.1) ||
      (q.closed && q.paths0.all fun y => disjShape (pathCls x.1) (pathCls y.1)))

theorem RE.apart_sound {r q : RE} {but : List (List CC)} (h : r.apart q but = true) {s : PyStr}
    {m : Match} (hm : r.match s = some m) (hn : 10 ∉ s) :
    (∃ ks ∈ but, HasShape ks s) ∨ q.match s = none := by
  simp only [RE.apart, Bool.and_eq_true] at h
  obtain ⟨hr, h⟩ := h
  obtain ⟨x, hx, -, -, hs, -, -⟩ := RE.match_whole hr hm hn
  have hx' := List.all_eq_true.1 h x hx
  simp only [Bool.or_eq_true, List.contains_iff_mem, Bool.and_eq_true] at hx'
  rcases hx' with hb | hc | ⟨hq, hd⟩
  · exact .inl ⟨_, hb, hs⟩
  · exact .inr (RE.chkNone_sound hc hs)
  · right
    cases hmq : q.match s with
    | none => rfl
    | some m' =>
      obtain ⟨y, hy, -, -, hs', -, -⟩ := RE.match_whole hq hmq hn
      exact (disjShape_sound (List.all_eq_true.1 hd y hy) hs hs').elim

/-- A text matched by `r` is matched by none of the patterns `qs`. -/
theorem RE.apart_all {r : RE} {qs : List RE} {but : List (List CC)}
    (h : qs.all (fun q => r.apart q but) = true) {s : PyStr} {m : Match} (hm : r.match s = some m)
    (hn : 10 ∉ s) (hb : ∀ ks ∈ but, ¬ HasShape ks s) : ∀ q ∈ qs, q.match s = none := by
  intro q hq
  rcases RE.apart_sound (List.all_eq_true.1 h q hq) hm hn with ⟨ks, hk, hs⟩ | h
  · exact (hb ks hk hs).elim
  · exact h

/-- The same, checked along the paths of the patterns `qs`. -/
theorem RE.apart_all' {r : RE} {qs : List RE} (h : qs.all (fun q => q.apart r []) = true) {s : PyStr}
    {m : Match} (hm : r.match s = some m) (hn : 10 ∉ s) : ∀ q ∈ qs, q.match s = none := by
  intro q hq
  cases hmq : q.match s with
  | none => rfl
  | some m' =>
    rcases RE.apart_sound (List.all_eq_true.1 h q hq) hmq hn with ⟨ks, hk, -⟩ | h
    · cases hk
    · rw [h] at hm; cases hm

/-- No text that begins with `w` has the shape. -/
def notPrefix : PyStr → List CC → Bool
  | [], _ => false
  | _ :: _, [] => true
  | c :: w, k :: ks => !k.mem c || notPrefix w ks

theorem notPrefix_sound {w : PyStr} {ks : List CC} (h : notPrefix w ks = true) {t : PyStr} :
    ¬ HasShape ks (w ++ t) := by
  induction w generalizing ks with
  | nil => cases h
  | cons c w ih =>
    cases ks with
    | nil => intro hs; cases hs
    | cons k ks =>
      rintro ⟨c', t', e, hc, ht⟩
      simp only [List.cons_append, List.cons.injEq] at e
      obtain ⟨rfl, rfl⟩ := e
      simp only [notPrefix, Bool.or_eq_true, Bool.not_eq_true'] at h
      rcases h with h | h
      · rw [h] at hc; cases hc
      · exact ih h ht

/-- The pattern matches no text that begins with `w`. -/
def RE.noPrefix (q : RE) (w : PyStr) : Bool :=
  q.closed && q.paths0.all fun y => notPrefix w (pathCls y.1)

theorem RE.noPrefix_sound {q : RE} {w : PyStr} (h : q.noPrefix w = true) {t : PyStr}
    (hn : 10 ∉ w ++ t) : q.match (w ++ t) = none := by
  simp only [RE.noPrefix, Bool.and_eq_true] at h
  cases hm : q.match (w ++ t) with
  | none => rfl
  | some m =>
    obtain ⟨y, hy, -, -, hs, -, -⟩ := RE.match_whole h.1 hm hn
    exact (notPrefix_sound (List.all_eq_true.1 h.2 y hy) hs).elim

end Verif
