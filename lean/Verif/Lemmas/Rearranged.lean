import Verif.Lemmas.Own
import Verif.Lemmas.Ambiguity
import Verif.Lemmas.Indicator
import Verif.Lemmas.TrendPeriods
import Verif.Spec.Rearranged

/-
Helper lemmas for C100.
-/

namespace Verif
open Spec

variable {σ : Type} {κ : Type}

/-- If nothing is left, every group is decoded. -/
theorem decodes_complete {hs : List (Handler σ)} {gs : List PyStr} {c : List (PyStr × Nat)}
    (hc : Decodes hs gs c) (hl : Leaves hs gs []) : (c.map (·.1)).Perm gs := by
  have := decodes_perm hc hl
  rw [List.append_nil] at this
  exact this.symm

/-- The groups with their kinds are the same in another order. -/
theorem perm_kinds {order : List κ} {c c' : List (PyStr × Nat)} (hp : (c.map (·.1)).Perm (c'.map (·.1)))
    (hs : SameKinds order c c') :
    (c.map fun x => (x.1, order[x.2]?)).Perm (c'.map fun x => (x.1, order[x.2]?)) := by
  classical
  -- the kind of a word, from the second report
  let K : PyStr → Option κ := fun w => ((c'.find? fun x => decide (x.1 = w)).bind fun x => order[x.2]?)
  have hK : ∀ w i, (w, i) ∈ c → K w = order[i]? := by
    intro w i hw
    have hm : w ∈ c'.map (·.1) := hp.mem_iff.1 (List.mem_map_of_mem (f := (·.1)) hw)
    obtain ⟨y, hy, e⟩ := List.mem_map.1 hm
    show (c'.find? fun x => decide (x.1 = w)).bind _ = _
    cases hf : c'.find? fun x => decide (x.1 = w) with
    | none =>
      have := List.find?_eq_none.1 hf y hy
      simp only [decide_eq_true_eq] at this
      exact absurd e this
    | some z =>
      have hz := List.mem_of_find?_eq_some hf
      have hz1 := List.find?_some hf
      simp only [decide_eq_true_eq] at hz1
      obtain ⟨z1, z2⟩ := z
      simp only at hz1
      subst hz1
      exact (hs z1 i z2 hw hz).symm
  have hK' : ∀ w j, (w, j) ∈ c' → K w = order[j]? := by
    intro w j hw
    have hm : w ∈ c.map (·.1) := hp.mem_iff.2 (List.mem_map_of_mem (f := (·.1)) hw)
    obtain ⟨⟨y1, y2⟩, hy, e⟩ := List.mem_map.1 hm
    simp only at e
    subst e
    rw [hK y1 y2 hy]
    exact hs _ _ _ hy hw
  have e1 : (c.map fun x => (x.1, order[x.2]?)) = (c.map (·.1)).map fun w => (w, K w) := by
    rw [List.map_map]
    refine List.map_congr_left fun x hx => ?_
    simp only [Function.comp]
    rw [hK x.1 x.2 hx]
  have e2 : (c'.map fun x => (x.1, order[x.2]?)) = (c'.map (·.1)).map fun w => (w, K w) := by
    rw [List.map_map]
    refine List.map_congr_left fun x hx => ?_
    simp only [Function.comp]
    rw [hK' x.1 x.2 hx]
  rw [e1, e2]
  exact hp.map _

/-- The groups taken as the kind at the places `lo..hi`. -/
theorem taken_perm {order : List κ} [DecidableEq κ] {c c' : List (PyStr × Nat)}
    (hp : (c.map fun x => (x.1, order[x.2]?)).Perm (c'.map fun x => (x.1, order[x.2]?)))
    (k : κ) {lo hi : Nat} (hk : ∀ i, order[i]? = some k ↔ lo ≤ i ∧ i ≤ hi) :
    (taken c lo hi).Perm (taken c' lo hi) := by
  have key : ∀ c : List (PyStr × Nat), taken c lo hi =
      ((c.map fun x => (x.1, order[x.2]?)).filter fun y => decide (y.2 = some k)).map (·.1) := by
    intro c
    unfold taken
    induction c with
    | nil => rfl
    | cons x c ih =>
      simp only [List.map_cons, List.filter_cons]
      by_cases h : lo ≤ x.2 ∧ x.2 ≤ hi
      · have := (hk x.2).2 h
        simp only [h, this, decide_true, if_true, List.map_cons, ih, and_self]
      · have : order[x.2]? ≠ some k := fun e => h ((hk x.2).1 e)
        simp only [h, this, decide_false, Bool.false_eq_true, if_false, ih]
  rw [key c, key c']
  exact (hp.filter _).map _

/-- The places of a kind, looked up in the table. -/
theorem block {order : List κ} {k : κ} {lo hi : Nat} (hh : hi < order.length)
    (h : ∀ i < order.length, order[i]? = some k ↔ lo ≤ i ∧ i ≤ hi) (i : Nat) :
    order[i]? = some k ↔ lo ≤ i ∧ i ≤ hi := by
  by_cases hi' : i < order.length
  · exact h i hi'
  · rw [List.getElem?_eq_none (Nat.le_of_not_lt hi')]
    simp
    omega

/-- The kinds come in the same order in both. -/
theorem kinds_same {order : List κ} (rank : κ → Nat) (hr : ∀ a b, rank a = rank b → a = b)
    (ho : (order.map rank).Pairwise (· ≤ ·)) {c c' : List (PyStr × Nat)} (h1 : Ordered c) (h1' : Ordered c')
    (hb : ∀ x ∈ c, x.2 < order.length) (hb' : ∀ x ∈ c', x.2 < order.length)
    (hp : (c.map fun x => (x.1, order[x.2]?)).Perm (c'.map fun x => (x.1, order[x.2]?))) :
    kinds order c = kinds order c' := by
  have hq : (kinds order c).Perm (kinds order c') := by
    have := hp.map (·.2)
    rw [List.map_map, List.map_map] at this
    exact this
  let le : Option κ → Option κ → Prop := fun a b => ∀ x y, a = some x → b = some y → rank x ≤ rank y
  have sorted : ∀ c : List (PyStr × Nat), Ordered c → (kinds order c).Pairwise le := by
    intro c hc
    refine List.pairwise_map.2 (List.Pairwise.imp ?_ hc)
    intro a b hab x y hx hy
    obtain ⟨ha, rfl⟩ := List.getElem?_eq_some_iff.1 hx
    obtain ⟨hb, rfl⟩ := List.getElem?_eq_some_iff.1 hy
    have := List.pairwise_iff_getElem.1 ho a.2 b.2 (by simpa using ha) (by simpa using hb) hab
    simpa using this
  have some_ : ∀ c : List (PyStr × Nat), (∀ x ∈ c, x.2 < order.length) → ∀ o ∈ kinds order c, ∃ k, o = some k := by
    intro c hb o ho
    obtain ⟨x, hx, rfl⟩ := List.mem_map.1 ho
    exact ⟨order[x.2]'(hb x hx), List.getElem?_eq_getElem (hb x hx)⟩
  refine hq.eq_of_pairwise (le := le) ?_ (sorted c h1) (sorted c' h1')
  intro a b ha hb2 h2 h3
  obtain ⟨x, rfl⟩ := some_ c hb a ha
  obtain ⟨y, rfl⟩ := some_ c' hb' b hb2
  rw [hr x y (Nat.le_antisymm (h2 x y rfl rfl) (h3 y x rfl rfl))]

theorem perm_short {l l' : List PyStr} (hp : l.Perm l') (h : l.length ≤ 1) : l = l' := by
  match l, h with
  | [], _ => exact (List.nil_perm.1 hp).symm
  | [x], _ => exact (List.perm_singleton.1 hp.symm).symm

theorem each_perm {α β : Type} {R : α → β → Prop} (hf : ∀ a x y, R a x → R a y → x = y) {l l' : List α}
    (hp : l.Perm l') : ∀ {xs ys : List β}, Each R l xs → Each R l' ys → xs.Perm ys := by
  have same : ∀ {l : List α} {xs ys : List β}, Each R l xs → Each R l ys → xs = ys := by
    intro l xs ys h
    induction h generalizing ys with
    | nil => intro h'; cases h'; rfl
    | cons hx _ ih =>
      intro h'
      cases h' with
      | cons hy h' => rw [hf _ _ _ hx hy, ih h']
  have total : ∀ {l l' : List α}, l.Perm l' → ∀ {xs : List β}, Each R l xs → ∃ ys, Each R l' ys ∧ xs.Perm ys := by
    intro l l' hp
    induction hp with
    | nil => intro xs h; exact ⟨xs, h, .refl _⟩
    | cons a _ ih =>
      intro xs h
      cases h with
      | cons hx h =>
        obtain ⟨ys, h1, h2⟩ := ih h
        exact ⟨_ :: ys, .cons hx h1, h2.cons _⟩
    | swap a b l =>
      intro xs h
      cases h with
      | cons hx h =>
        cases h with
        | cons hy h => exact ⟨_, .cons hy (.cons hx h), .swap _ _ _⟩
    | trans _ _ ih1 ih2 =>
      intro xs h
      obtain ⟨ys, h1, h2⟩ := ih1 h
      obtain ⟨zs, h3, h4⟩ := ih2 h1
      exact ⟨zs, h3, h2.trans h4⟩
  intro xs ys h h'
  obtain ⟨zs, h1, h2⟩ := total hp h
  rw [same h' h1]
  exact h2

theorem FromGroups.perm {α : Type} {c c' : List (PyStr × Nat)} {lo hi : Nat} {re : RE}
    {f : Match → Except Exc α} {x x' : List α} (h : FromGroups c lo hi re f x)
    (h' : FromGroups c' lo hi re f x') (hs : (taken c lo hi).Perm (taken c' lo hi)) : x.Perm x' := by
  refine each_perm ?_ hs h h'
  rintro g x y ⟨m, e1, e2⟩ ⟨m', e1', e2'⟩
  rw [e1, Option.some.injEq] at e1'
  subst e1'
  rw [e2, Except.ok.injEq] at e2'
  exact e2'

/-! ### The periods of a trend -/

theorem chain_det {α β : Type} {R : α → β → β → Prop} (hf : ∀ g t a b, R g t a → R g t b → a = b) {l : List α}
    {t a b : β} (h : Chain R l t a) (h' : Chain R l t b) : a = b := by
  induction h with
  | nil => cases h'; rfl
  | cons h1 _ ih =>
    cases h' with
    | cons h2 h3 =>
      obtain rfl := hf _ _ _ _ h1 h2
      exact ih h3

theorem perm_two {α : Type} {x y : α} {l : List α} (h : [x, y].Perm l) : l = [x, y] ∨ l = [y, x] := by
  match l, h.length_eq with
  | [a, b], _ =>
    have hx : x ∈ [a, b] := h.subset (by simp)
    simp only [List.mem_cons, List.not_mem_nil, or_false] at hx
    rcases hx with rfl | rfl
    · have := List.perm_singleton.1 (List.Perm.cons_inv h).symm
      simp only [List.cons.injEq, and_true] at this
      exact .inl (by rw [this])
    · have := List.perm_singleton.1 (List.Perm.cons_inv (h.trans (List.Perm.swap _ _ _))).symm
      simp only [List.cons.injEq, and_true] at this
      exact .inr (by rw [this])

/-- One period more: only the time that it names and the code change. -/
theorem addPeriod_sets {t t' : TrendIndicator} {w : PeriodGroup} (hw : w.WF) {m : Match}
    (hm : MetarRegExp.TREND_TIME_PERIOD.match w.text = some m) (h : t.addPeriod m = .ok t') :
    ∃ middle x, t.init.time.addHours 1 = .ok middle ∧
      t.periodTime middle (digitsVal w.hour) (digitsVal w.minute) = .ok x ∧
      t'.init = t.init ∧ t'.end_ = t.end_ ∧ t'.translation = t.translation ∧
      t'.from_ = (if w.kind = .from_ then Time.ofDT x (some w.text) else t.from_) ∧
      t'.until_ = (if w.kind = .until_ then Time.ofDT x (some w.text) else t.until_) ∧
      t'.at_ = if w.kind = .at_ then some (Time.ofDT x (some w.text)) else t.at_ := by
  obtain ⟨m', e1, e2, e3, e4, e5⟩ := period_match w hw
  rw [hm, Option.some.injEq] at e1
  subst e1
  unfold TrendIndicator.addPeriod at h
  simp only [bind_ok] at h
  obtain ⟨code, -, middle, h1, hr, h2, mi, h3, x, h4, h⟩ := h
  rw [e4, Except.ok.injEq] at h2
  rw [e5, Except.ok.injEq] at h3
  subst h2 h3
  refine ⟨middle, x, h1, h4, ?_⟩
  rw [e3, e2] at h
  cases hk : w.kind <;> rw [hk] at h
  · rw [if_pos (by decide)] at h
    simp only [pure_ok] at h
    subst h
    simp
  · rw [if_neg (by decide), if_pos (by decide)] at h
    simp only [pure_ok] at h
    subst h
    simp
  · rw [if_neg (by decide), if_neg (by decide)] at h
    simp only [pure_ok] at h
    subst h
    simp

/-- The two periods of a trend in the other order. -/
theorem addPeriod_comm {t a b a' b' : TrendIndicator} {w w' : PeriodGroup} (hw : w.WF) (hw' : w'.WF)
    (hk : w.kind ≠ w'.kind) {m m' : Match} (hm : MetarRegExp.TREND_TIME_PERIOD.match w.text = some m)
    (hm' : MetarRegExp.TREND_TIME_PERIOD.match w'.text = some m')
    (h1 : t.addPeriod m = .ok a) (h2 : a.addPeriod m' = .ok b) (h1' : t.addPeriod m' = .ok a')
    (h2' : a'.addPeriod m = .ok b') : SamePeriods b b' := by
  obtain ⟨d1, x1, p1, q1, r1, r2, r3, r4, r5, r6⟩ := addPeriod_sets hw hm h1
  obtain ⟨d2, x2, p2, q2, s1, s2, s3, s4, s5, s6⟩ := addPeriod_sets hw' hm' h2
  obtain ⟨d1', x1', p1', q1', r1', r2', r3', r4', r5', r6'⟩ := addPeriod_sets hw' hm' h1'
  obtain ⟨d2', x2', p2', q2', s1', s2', s3', s4', s5', s6'⟩ := addPeriod_sets hw hm h2'
  have pt : ∀ {u v : TrendIndicator}, u.init = v.init → u.end_ = v.end_ → ∀ d h m,
      u.periodTime d h m = v.periodTime d h m := by
    intro u v e1 e2 d h m
    unfold TrendIndicator.periodTime
    rw [e1, e2]
  rw [r1] at p2
  rw [r1'] at p2'
  rw [p1, Except.ok.injEq] at p2 p1' p2'
  subst p2 p1' p2'
  rw [pt r1 r2, q1', Except.ok.injEq] at q2
  rw [pt r1' r2', q1, Except.ok.injEq] at q2'
  subst q2 q2'
  refine ⟨by rw [s1, s1', r1, r1'], by rw [s2, s2', r2, r2'], by rw [s3, s3', r3, r3'], ?_, ?_, ?_⟩
  · rw [s4, s4', r4, r4']
    by_cases e : w.kind = .from_ <;> by_cases e' : w'.kind = .from_ <;> simp_all
  · rw [s5, s5', r5, r5']
    by_cases e : w.kind = .until_ <;> by_cases e' : w'.kind = .until_ <;> simp_all
  · rw [s6, s6', r6, r6']
    by_cases e : w.kind = .at_ <;> by_cases e' : w'.kind = .at_ <;> simp_all

end Verif
