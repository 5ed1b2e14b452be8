import Verif.Props.Shears
import Verif.Lemmas.Plain
import Verif.Spec.RoundTrip

/-
The groups of the text of a METAR record.
-/

namespace Verif.Props
open Spec

/-! ### Joining the visibility -/

theorem isPair_digits {w v : PyStr} (h : w.all isDigit = false) : isPair w v = false := by
  unfold isPair
  rw [h]; simp

theorem isPair_miles {w v : PyStr} (h : ¬ Miles v) : isPair w v = false := by
  rw [Bool.eq_false_iff]
  intro hp
  exact h (isPair_iff.1 hp).2.2

theorem joinPair_front {A l : List PyStr} (h : ∀ w ∈ A, w.all isDigit = false) :
    joinPair (A ++ l) = (joinPair l).map (A ++ ·) := by
  induction A with
  | nil => rw [List.nil_append]; cases joinPair l <;> rfl
  | cons w A ih =>
    have ih' := ih fun w h' => h w (List.mem_cons_of_mem _ h')
    have hw := h w (by simp)
    cases hl : A ++ l with
    | nil =>
      have e : A = [] ∧ l = [] := List.append_eq_nil_iff.1 hl
      obtain ⟨rfl, rfl⟩ := e
      rfl
    | cons v vs =>
      rw [hl] at ih'
      rw [List.cons_append, hl, joinPair, isPair_digits hw, if_neg (by simp), ih']
      cases joinPair l <;> rfl

theorem joinPair_none {w : PyStr} {B : List PyStr} (h : ∀ v ∈ B, ¬ Miles v) : joinPair (w :: B) = none := by
  induction B generalizing w with
  | nil => rfl
  | cons v B ih =>
    rw [joinPair, isPair_miles (h v (by simp)), if_neg (by simp),
      ih fun v h' => h v (List.mem_cons_of_mem _ h')]
    rfl

theorem joinPair_nil {B : List PyStr} (h : ∀ v ∈ B, ¬ Miles v) : joinPair B = none := by
  cases B with
  | nil => rfl
  | cons w B => exact joinPair_none fun v h' => h v (List.mem_cons_of_mem _ h')

/-- The words before the visibility are no numbers, those after it no miles. -/
theorem joinPairs_words {n : Nat} {A B : List PyStr} {v : Option VisGroup} (hA : ∀ w ∈ A, w.all isDigit = false)
    (hv : ∀ g, v = some g → g.WF) (hB : ∀ w ∈ B, ¬ Miles w)
    (hgo : (∃ g, v = some g ∧ g.words.length = 2) → B ≠ []) :
    joinPairs (n + 1) (A ++ (v.toList.flatMap VisGroup.words ++ B)) = A ++ (v.toList.map VisGroup.text ++ B) := by
  cases v with
  | none =>
    simp only [Option.toList_none, List.flatMap_nil, List.nil_append, List.map_nil]
    rw [joinPairs, joinPair_front hA, joinPair_nil hB]
    rfl
  | some g =>
    have single : g.words = [g.text] → joinPairs (n + 1) (A ++ ((some g).toList.flatMap VisGroup.words ++ B)) =
        A ++ ((some g).toList.map VisGroup.text ++ B) := by
      intro e
      simp only [Option.toList_some, List.flatMap_cons, e, List.flatMap_nil, List.map_cons, List.map_nil,
        List.append_nil]
      rw [joinPairs, joinPair_front hA, List.singleton_append, joinPair_none hB]
      rfl
    have hgo' : g.words.length = 2 → B ≠ [] := fun e => hgo ⟨g, rfl, e⟩
    have hwf := hv g rfl
    unfold VisGroup.words at hgo'
    split at hgo'
    · next ds a b =>
      obtain ⟨b0, B, rfl⟩ := List.exists_cons_of_ne_nil (hgo' rfl)
      obtain ⟨h1, h2⟩ := hwf
      obtain ⟨hl, hd⟩ := h1 ds rfl
      obtain ⟨ha, hb⟩ := h2 a b rfl
      have hp : isPair ds (a :: py!"/" ++ b :: py!"SM") = true := by
        refine isPair_iff.2 ⟨?_, hd, a, b, [], by simp, ha, hb⟩
        rintro rfl; simp at hl
      simp only [Option.toList_some, List.flatMap_cons, VisGroup.words, List.flatMap_nil, List.map_cons,
        List.map_nil, List.append_nil]
      rw [joinPairs, joinPair_front hA]
      simp only [List.cons_append, List.nil_append] at hp ⊢
      rw [joinPair, if_pos hp]
      simp only [Option.map_some, List.take_succ_cons, List.drop_succ_cons, List.drop_nil, List.take_nil,
        ne_eq, reduceCtorEq, not_false_eq_true, and_self, if_true]
      have e : VisGroup.text (.range ⟨.exact, some ds, true, some (a, b), .sm⟩) = ds ++ 95 :: a :: 47 :: b :: py!"SM" := by
        simp [VisGroup.text, Range.text, VisBound.text, fractionText, VisUnit.text]
      rw [e]
      have hnone : joinPair (A ++ ((ds ++ py!"_" ++ [a, 47, b, 83, 77]) :: b0 :: B)) = none := by
        rw [joinPair_front hA, joinPair_none hB]; rfl
      cases n with
      | zero => simp [joinPairs]
      | succ n =>
        rw [joinPairs, hnone]
        simp
    · next g' hne => exact single (by unfold VisGroup.words; split; exact (hne _ _ _ rfl).elim; rfl)

/-! ### Joining the wind shear -/

theorem joinAll_cons {w : PyStr} {l : List PyStr} (h : ¬ py!"WS" <:+ w) : joinAll (w :: l) = w :: joinAll l := by
  cases l with
  | nil => simp [joinAll]
  | cons a l =>
    cases l with
    | nil => simp [joinAll]
    | cons v l =>
      rw [joinAll, if_neg]
      intro hp
      obtain ⟨⟨p, rfl⟩, -⟩ := isAll_iff.1 hp
      exact h ⟨p, rfl⟩

theorem joinAll_front {A l : List PyStr} (h : ∀ w ∈ A, ¬ py!"WS" <:+ w) : joinAll (A ++ l) = A ++ joinAll l := by
  induction A with
  | nil => rfl
  | cons w A ih =>
    rw [List.cons_append, joinAll_cons (h w (by simp)), ih fun w h' => h w (List.mem_cons_of_mem _ h')]
    rfl

theorem joinAll_skip {w a : PyStr} {l : List PyStr} (h : a ≠ py!"ALL") :
    joinAll (w :: a :: l) = w :: joinAll (a :: l) := by
  cases l with
  | nil => simp [joinAll]
  | cons v l =>
    rw [joinAll, if_neg]
    intro hp
    exact h (isAll_iff.1 hp).2.1

theorem joinShear_other {w : PyStr} {l : List PyStr} (h : ¬ py!"WS" <:+ w) :
    joinShear (w :: l) = (joinShear l).map (w :: ·) := by
  cases l with
  | nil => rfl
  | cons v l =>
    rw [joinShear_cons, if_neg]
    intro hp
    exact h (List.isSuffixOf_iff_suffix.1 hp.1)

theorem joinShears_cons {n : Nat} {w : PyStr} {l : List PyStr} (h : ¬ py!"WS" <:+ w) :
    joinShears n (w :: l) = w :: joinShears n l := by
  induction n generalizing l with
  | zero => rfl
  | succ n ih =>
    rw [joinShears, joinShears, joinShear_other h]
    cases joinShear l with
    | none => rfl
    | some l' => exact ih

theorem joinShears_front {n : Nat} {A l : List PyStr} (h : ∀ w ∈ A, ¬ py!"WS" <:+ w) :
    joinShears n (A ++ l) = A ++ joinShears n l := by
  induction A with
  | nil => rfl
  | cons w A ih =>
    rw [List.cons_append, joinShears_cons (h w (by simp)), ih fun w h' => h w (List.mem_cons_of_mem _ h')]
    rfl

theorem joinShears_skip {n : Nat} {w a : PyStr} {l : List PyStr} (ha : ¬ py!"WS" <:+ a)
    (h : shearTail a = none) : joinShears n (w :: a :: l) = w :: joinShears n (a :: l) := by
  induction n generalizing l with
  | zero => rfl
  | succ n ih =>
    rw [joinShears, joinShears, joinShear_cons, if_neg (by rw [h]; simp), joinShear_other ha]
    cases joinShear l with
    | none => rfl
    | some l' => exact ih

theorem joinShears_id {n : Nat} {A : List PyStr} (h : ∀ w ∈ A, ¬ py!"WS" <:+ w) : joinShears n A = A := by
  have := joinShears_front (n := n) (l := []) h
  simp only [List.append_nil] at this
  rw [this]
  cases n <;> simp [joinShears, joinShear]

theorem joinAll_id {A : List PyStr} (h : ∀ w ∈ A, ¬ py!"WS" <:+ w) : joinAll A = A := by
  have := joinAll_front (l := []) h
  simpa [joinAll] using this

theorem runway_end {r : RunwayCode} (h : r.WF) {p : PyStr} : ¬ py!"WS" <:+ p ++ r.text := by
  obtain ⟨ds, side⟩ := r
  obtain ⟨hl, hd⟩ := h
  simp only at hl hd
  match ds, hl with
  | [x, y], _ =>
    have h83 : isDigit 83 = false := by decide +kernel
    have hy : y ≠ 83 := by rintro rfl; rw [hd 83 (by simp)] at h83; cases h83
    intro hs
    obtain ⟨q, hq⟩ := hs
    have e := congrArg List.getLast? hq
    cases side with
    | none => simp [RunwayCode.text, sideText] at e; exact hy e.symm
    | some s => cases s <;> simp [RunwayCode.text, sideText, Side.text] at e

theorem runway_tail {r : RunwayCode} (h : r.WF) (long : Bool) :
    shearTail (py!"R" ++ (if long then py!"WY" else []) ++ r.text) = some r.text := by
  obtain ⟨ds, side⟩ := r
  obtain ⟨hl, hd⟩ := h
  simp only at hl hd
  match ds, hl with
  | [x, y], _ =>
    refine shearTail_iff.2 ⟨if long then py!"WY" else [], x, y, sideText side, ?_, hd x (by simp),
      hd y (by simp), rfl, rfl⟩
    cases long <;> simp

/-- The words of the warnings after the first step. -/
def Shear.half : Shear → List PyStr
  | .all => [py!"WS_ALL_RWY"]
  | .runway long r => [py!"WS", py!"R" ++ (if long then py!"WY" else []) ++ r.text]

theorem joinAll_shears {ss : List Shear} (h : ∀ w ∈ ss, w.WF) (l : List PyStr) :
    joinAll (ss.flatMap Shear.words ++ l) = ss.flatMap Shear.half ++ joinAll l := by
  induction ss with
  | nil => rfl
  | cons s ss ih =>
    have ih' := ih fun w h' => h w (List.mem_cons_of_mem _ h')
    simp only [List.flatMap_cons, List.append_assoc]
    cases s with
    | all =>
      simp only [Shear.words, Shear.half, List.cons_append, List.nil_append]
      rw [joinAll, if_pos (by decide)]
      have e : (py!"RWY").drop 3 = [] := rfl
      rw [e, joinAll_cons (by decide), ih']
      rfl
    | runway long r =>
      have hwf : r.WF := h (.runway long r) (by simp)
      simp only [Shear.words, Shear.half, List.cons_append, List.nil_append]
      rw [joinAll_skip (by simp), joinAll_cons, ih']
      have := runway_end (p := py!"R" ++ (if long then py!"WY" else [])) hwf
      simpa using this

theorem joinShears_shears {n : Nat} {ss : List Shear} (h : ∀ w ∈ ss, w.WF) (hn : ss.length ≤ n)
    {l : List PyStr} (hl : ∀ w ∈ l, ¬ py!"WS" <:+ w) :
    joinShears n (ss.flatMap Shear.half ++ l) = ss.map (fun s => s.group.text) ++ l := by
  induction ss generalizing n with
  | nil => exact joinShears_id hl
  | cons s ss ih =>
    simp only [List.length_cons] at hn
    obtain ⟨n, rfl⟩ : ∃ k, n = k + 1 := ⟨n - 1, by omega⟩
    have hss : ∀ w ∈ ss, w.WF := fun w h' => h w (List.mem_cons_of_mem _ h')
    simp only [List.flatMap_cons, List.append_assoc, List.map_cons, List.cons_append]
    cases s with
    | all =>
      simp only [Shear.half, List.cons_append, List.nil_append]
      rw [joinShears_cons (by decide), ih hss (by omega)]
      rfl
    | runway long r =>
      have hwf : r.WF := h (.runway long r) (by simp)
      simp only [Shear.half, List.cons_append, List.nil_append]
      have ht := runway_tail hwf long
      simp only [List.cons_append, List.nil_append] at ht
      rw [joinShears, joinShear_cons, ht, if_pos ⟨by decide, rfl⟩]
      simp only [Option.getD_some]
      rw [joinShears_cons (runway_end hwf), ih hss (by omega)]
      simp [Shear.group, ShearGroup.text]

end Verif.Props
