import Verif.Lemmas.PeriodAttr

/-
The change indicators of trends and changes.
-/

namespace Verif

variable {σ α : Type}

/-- An attribute updated by the handlers at the positions `lo..hi`. -/
theorem Spec.Runs.chain {hs : List (Handler σ)} {get : σ → α} {lo hi : Nat}
    {f : Match → α → Except Exc α} {c : List (PyStr × Nat)} {s s' : σ}
    (hr : Spec.Runs hs c s (.ok s')) {r : RE}
    (hre : ∀ i h, lo ≤ i → i ≤ hi → hs[i]? = some h → h.regexp = r)
    (hset : ∀ i h, lo ≤ i → i ≤ hi → hs[i]? = some h → ∀ m s s', h.run m s = .ok s' →
      f m (get s) = .ok (get s'))
    (hkeep : ∀ x ∈ c, x.2 < lo ∨ hi < x.2 → Keeps hs get x.2) :
    Spec.Chain (fun g b b' => ∃ m, r.match g = some m ∧ f m b = .ok b') (Spec.taken c lo hi)
      (get s) (get s') := by
  generalize hout : (Except.ok s' : Except Exc σ) = out at hr
  induction hr with
  | nil s => cases hout; exact .nil _
  | fail _ _ _ => cases hout
  | @step g i rest s h m s1 out h1 h2 h3 _ ih =>
    have ih := ih (fun x hx => hkeep x (by simp [hx])) hout
    unfold Spec.taken at ih ⊢
    rw [List.filter_cons]
    by_cases hI : lo ≤ i ∧ i ≤ hi
    · simp only [hI, and_self, decide_true, if_true, List.map_cons]
      exact .cons ⟨m, hre i h hI.1 hI.2 h1 ▸ h2, hset i h hI.1 hI.2 h1 m s s1 h3⟩ ih
    · simp only [hI, decide_false, Bool.false_eq_true, if_false]
      rw [hkeep (g, i) (by simp) (by simp only; omega) h h1 m s s1 h3] at ih
      exact ih

/-- Take off the group of the first handler. -/
theorem Spec.Runs.first {hs : List (Handler σ)} {get : σ → α} {f : σ → Match → Except Exc α}
    {c : List (PyStr × Nat)} {s s' : σ} (hr : Spec.Runs hs c s (.ok s')) (ho : Ordered c)
    {r : RE} (hre : (hs[0]?).map (·.regexp) = some r)
    (hset : ∀ h, hs[0]? = some h → ∀ m s s', h.run m s = .ok s' → f s m = .ok (get s')) :
    ∃ c' s1, Spec.FromGroup c 0 r (f s) (get s) (get s1) ∧ Spec.Runs hs c' s1 (.ok s') ∧
      (∀ x ∈ c', 0 < x.2 ∧ x ∈ c) ∧ (∀ lo hi, 0 < lo → Spec.taken c' lo hi = Spec.taken c lo hi) := by
  cases hr with
  | nil => exact ⟨[], s, .inr ⟨by simp, rfl⟩, .nil s, by simp, fun _ _ _ => rfl⟩
  | @step g i rest _ h m s1 out h1 h2 h3 hrest =>
    obtain ⟨ho1, ho2⟩ := List.pairwise_cons.1 ho
    by_cases hi : i = 0
    · subst hi
      have hr : h.regexp = r := by rw [h1] at hre; simpa using hre
      refine ⟨rest, s1, .inl ⟨g, m, by simp, hr ▸ h2, hset h h1 m s s1 h3⟩, hrest,
        fun x hx => ⟨ho1 x hx, by simp [hx]⟩, fun lo hi hlo => ?_⟩
      unfold Spec.taken
      rw [List.filter_cons, if_neg (by simp; omega)]
    · refine ⟨_, s, .inr ⟨?_, rfl⟩, .step h1 h2 h3 hrest, ?_, fun _ _ _ => rfl⟩
      · intro g' hg'
        rcases List.mem_cons.1 hg' with he | hg'
        · cases he; exact hi rfl
        · have := ho1 _ hg'
          simp at this
      · intro x hx
        refine ⟨?_, hx⟩
        rcases List.mem_cons.1 hx with rfl | hx
        · simp only; omega
        · have := ho1 x hx
          simp only at this
          omega

/-- The change indicator of a METAR trend. -/
theorem ChangePeriod.indicator_reading {c : List (PyStr × Nat)} {p0 p : ChangePeriod}
    (hr : Spec.Runs ChangePeriod.handlers c p0 (.ok p)) (ho : Ordered c) :
    ∃ t0, Spec.FromGroup c 0 MetarRegExp.CHANGE_INDICATOR (fun m => TrendIndicator.new (some m) p0.time)
        p0.indicator t0 ∧
      Spec.Chain (fun g t t' => ∃ m, MetarRegExp.TREND_TIME_PERIOD.match g = some m ∧
        TrendIndicator.addPeriod t m = .ok t') (Spec.taken c 1 2) t0 p.indicator := by
  obtain ⟨c', p1, h1, h2, h3, h4⟩ := hr.first (get := fun p => p.indicator)
    (f := fun p m => TrendIndicator.new (some m) p.time) (r := MetarRegExp.CHANGE_INDICATOR) ho rfl (by
      intro h hh m s s' hs
      cases hh
      simp only [ChangePeriod.handleTrendIndicator, bind_ok, pure_ok] at hs
      obtain ⟨t, h1, rfl⟩ := hs
      exact h1)
  refine ⟨p1.indicator, h1, ?_⟩
  rw [← h4 1 2 (by omega)]
  refine h2.chain (get := fun p => p.indicator) (f := fun m t => TrendIndicator.addPeriod t m) ?_ ?_ ?_
  · intro i h h1 h2 hh
    have : i = 1 ∨ i = 2 := by omega
    rcases this with rfl | rfl <;> cases hh <;> rfl
  · intro i h h1 h2 hh m s s' hs
    have : i = 1 ∨ i = 2 := by omega
    rcases this with rfl | rfl <;> cases hh <;>
    · simp only [ChangePeriod.handleTimePeriod, bind_ok, pure_ok] at hs
      obtain ⟨t, h1, rfl⟩ := hs
      exact h1
  · intro x hx hlt h hh m s s' hs
    exact (ChangePeriod.effect hh hs).indicator (by have := h3 x hx; omega)

/-- The change indicator of a TAF change. -/
theorem ChangeForecasted.indicator_reading {c : List (PyStr × Nat)} {p0 p : ChangeForecasted}
    (hr : Spec.Runs ChangeForecasted.handlers c p0 (.ok p)) (ho : Ordered c) :
    ∃ t0, Spec.FromGroup c 0 TafRegExp.CHANGE_INDICATOR (fun m => TafIndicator.new (some m) p0.valid)
        p0.indicator t0 ∧
      Spec.FromGroup c 1 TafRegExp.VALID (fun m => t0.setValidPeriod m p0.valid.from_)
        t0 p.indicator := by
  obtain ⟨c', p1, h1, h2, h3, h4⟩ := hr.first (get := fun p => (p.indicator, p.valid))
    (f := fun p m => (TafIndicator.new (some m) p.valid).map fun i => (i, p.valid))
    (r := TafRegExp.CHANGE_INDICATOR) ho rfl (by
      intro h hh m s s' hs
      cases hh
      simp only [ChangeForecasted.handleIndicator, bind_ok, pure_ok] at hs
      obtain ⟨t, h1, rfl⟩ := hs
      rw [h1]; rfl)
  have hv : p1.valid = p0.valid := by
    rcases h1 with ⟨g, m, -, -, h1⟩ | ⟨-, h1⟩
    · simp only at h1
      cases h : TafIndicator.new (some m) p0.valid with
      | error e => rw [h] at h1; cases h1
      | ok i =>
        rw [h] at h1
        simp only [Except.map, Except.ok.injEq, Prod.mk.injEq] at h1
        exact h1.2.symm
    · exact (Prod.mk.inj h1).2
  refine ⟨p1.indicator, ?_, ?_⟩
  · rcases h1 with ⟨g, m, h1, h2, h3⟩ | ⟨h1, h2⟩
    · left
      refine ⟨g, m, h1, h2, ?_⟩
      simp only at h3 ⊢
      cases h : TafIndicator.new (some m) p0.valid with
      | error e => rw [h] at h3; cases h3
      | ok i =>
        rw [h] at h3
        simp only [Except.map, Except.ok.injEq, Prod.mk.injEq] at h3
        rw [h3.1]
    · exact .inr ⟨h1, (Prod.mk.inj h2).1⟩
  · have hch := h2.chain (get := fun p => (p.indicator, p.valid)) (lo := 1) (hi := 1)
      (r := TafRegExp.VALID)
      (f := fun m t => (TafIndicator.setValidPeriod t.1 m t.2.from_).map fun i => (i, t.2)) ?_ ?_ ?_
    · rw [h4 1 1 (by omega)] at hch
      generalize ht : Spec.taken c 1 1 = l at hch
      have hmem : ∀ g, g ∈ l ↔ (g, 1) ∈ c := by
        intro g
        rw [← ht]
        unfold Spec.taken
        simp only [List.mem_map, List.mem_filter, decide_eq_true_eq, Prod.exists, exists_and_right,
          exists_eq_right]
        constructor
        · rintro ⟨i, hi, h⟩
          obtain rfl : i = 1 := by omega
          exact hi
        · exact fun h => ⟨1, h, by omega⟩
      have hone : l.length ≤ 1 := by
        rw [← ht]
        unfold Spec.taken
        rw [List.length_map]
        have hp : (c.filter fun x => decide (1 ≤ x.2 ∧ x.2 ≤ 1)).Pairwise fun x y => x.2 < y.2 :=
          ho.filter _
        have hall : ∀ x ∈ c.filter fun x => decide (1 ≤ x.2 ∧ x.2 ≤ 1), x.2 = 1 := by
          intro x hx
          have := (List.mem_filter.1 hx).2
          simp only [decide_eq_true_eq] at this
          omega
        generalize (c.filter fun x => decide (1 ≤ x.2 ∧ x.2 ≤ 1)) = l' at hp hall
        match l', hp, hall with
        | [], _, _ => simp
        | [_], _, _ => simp
        | a :: b :: t, hp, hall =>
          have h1 := (List.pairwise_cons.1 hp).1 b (by simp)
          have h2 := hall a (by simp)
          have h3 := hall b (by simp)
          omega
      generalize hq : (p.indicator, p.valid) = q at hch
      generalize hq1 : (p1.indicator, p1.valid) = q1 at hch
      cases hch with
      | nil =>
        right
        refine ⟨fun g hg => by simpa using (hmem g).2 hg, ?_⟩
        exact (Prod.mk.inj (hq.trans hq1.symm)).1
      | @cons g l' _ b' _ hs hrest =>
        obtain ⟨m, hm, hs⟩ := hs
        have hl' : l' = [] := by
          cases l' with
          | nil => rfl
          | cons _ _ => simp at hone
        subst hl'
        left
        refine ⟨g, m, (hmem g).1 (by simp), hm, ?_⟩
        subst hq1
        simp only [hv] at hs
        cases h : TafIndicator.setValidPeriod p1.indicator m p0.valid.from_ with
        | error e => rw [h] at hs; cases hs
        | ok i =>
          rw [h] at hs
          simp only [Except.map, Except.ok.injEq] at hs
          subst hs
          cases hrest
          rw [(Prod.mk.inj hq).1]
          exact h
    · intro i h h1 h2 hh
      obtain rfl : i = 1 := by omega
      cases hh; rfl
    · intro i h h1 h2 hh m s s' hs
      obtain rfl : i = 1 := by omega
      cases hh
      simp only [ChangeForecasted.handleValid, bind_ok, pure_ok] at hs
      obtain ⟨t, h1, rfl⟩ := hs
      simp only [h1]; rfl
    · intro x hx hlt h hh m s s' hs
      have he := ChangeForecasted.effect hh hs
      simp only
      rw [he.indicator (by have := h3 x hx; omega), he.valid]

end Verif
