import Verif.Lemmas.Frame
import Verif.Lemmas.Construct

/-
Which groups of a section an attribute of the report comes from.
-/

namespace Verif

variable {σ α β : Type}

/-- The handler at position `j` leaves the attribute alone. -/
def Keeps (hs : List (Handler σ)) (get : σ → α) (j : Nat) : Prop :=
  ∀ h, hs[j]? = some h → ∀ m s s', h.run m s = .ok s' → get s' = get s

/-- The consumed groups come in the order of the table. -/
def Ordered (c : List (PyStr × Nat)) : Prop := c.Pairwise fun x y => x.2 < y.2

theorem consumed_snd (gs : List PyStr) (asg : List (Option Nat)) (h : asg.length = gs.length) :
    (Spec.consumed gs asg).map (·.2) = Spec.used asg := by
  induction gs generalizing asg with
  | nil => cases asg <;> simp_all [Spec.consumed, Spec.used]
  | cons g gs ih =>
    cases asg with
    | nil => simp at h
    | cons o asg =>
      have := ih asg (by simpa using h)
      cases o <;> simp_all [Spec.consumed, Spec.used]

theorem consumed_ordered {hs : List (Handler σ)} {gs : List PyStr} {index : Nat} :
    Ordered (Spec.consumed gs (assign hs index gs)) := by
  have h := (assign_used (hs := hs) (index := index) (gs := gs)).2
  rw [← consumed_snd gs _ (assign_length hs index gs)] at h
  exact List.pairwise_map.1 h

theorem consumed_mem {gs : List PyStr} {asg : List (Option Nat)} {g : PyStr} {i : Nat}
    (h : (g, i) ∈ Spec.consumed gs asg) : g ∈ gs := by
  unfold Spec.consumed at h
  simp only [List.mem_filterMap, Option.map_eq_some_iff, Prod.mk.injEq] at h
  obtain ⟨⟨g', o⟩, hm, i', _, rfl, rfl⟩ := h
  exact (List.of_mem_zip hm).1

/-- Inversion of a successful section. -/
theorem parseSection_ok {hs : List (Handler σ)} {text : PyStr} {s s' : σ} {un : List PyStr}
    (h : parseSection hs text s = .ok (s', un)) :
    Spec.Runs hs (Spec.consumed (splitC 32 text) (assign hs 0 (splitC 32 text))) s (.ok s') ∧
      un = Spec.leftover (splitC 32 text) (assign hs 0 (splitC 32 text)) := by
  obtain ⟨out, h1, h2⟩ := @parseSection_eq σ hs text s
  rw [h2] at h
  cases out with
  | error e => simp [Except.map] at h
  | ok s1 =>
    simp only [Except.map, Except.ok.injEq, Prod.mk.injEq] at h
    rw [h.1] at h1
    exact ⟨h1, h.2.symm⟩

theorem Spec.Runs.keep {hs : List (Handler σ)} {get : σ → α} {c : List (PyStr × Nat)} {s s' : σ}
    (hr : Spec.Runs hs c s (.ok s')) (hk : ∀ x ∈ c, Keeps hs get x.2) : get s' = get s := by
  generalize ho : (Except.ok s' : Except Exc σ) = out at hr
  induction hr with
  | nil s => cases ho; rfl
  | fail _ _ _ => cases ho
  | @step g i rest s h m s1 out h1 h2 h3 _ ih =>
    rw [ih (fun x hx => hk x (by simp [hx])) ho]
    exact hk (g, i) (by simp) h h1 m s s1 h3

/-- What happened at one of the consumed groups. -/
theorem Spec.Runs.split {hs : List (Handler σ)} {c : List (PyStr × Nat)} {s s' : σ}
    (hr : Spec.Runs hs c s (.ok s')) (ho : Ordered c) {g : PyStr} {i : Nat} (hm : (g, i) ∈ c) :
    ∃ c1 c2 h m s1 s2, c = c1 ++ (g, i) :: c2 ∧ Spec.Runs hs c1 s (.ok s1) ∧ hs[i]? = some h ∧
      h.regexp.match g = some m ∧ h.run m s1 = .ok s2 ∧ Spec.Runs hs c2 s2 (.ok s') ∧
      (∀ x ∈ c1, x.2 < i) ∧ (∀ x ∈ c2, i < x.2) := by
  generalize hout : (Except.ok s' : Except Exc σ) = out at hr
  induction hr with
  | nil s => cases hm
  | fail _ _ _ => cases hout
  | @step g' i' rest s h m s1 out h1 h2 h3 hrest ih =>
    obtain ⟨ho1, ho2⟩ := List.pairwise_cons.1 ho
    rcases List.mem_cons.1 hm with heq | hm
    · cases heq
      exact ⟨[], rest, h, m, s, s1, rfl, .nil s, h1, h2, h3, hout ▸ hrest, by simp, fun x hx => ho1 x hx⟩
    · obtain ⟨c1, c2, h', m', t1, t2, rfl, e2, e3, e4, e5, e6, e7, e8⟩ := ih ho2 hm hout
      refine ⟨(g', i') :: c1, c2, h', m', t1, t2, rfl, .step h1 h2 h3 e2, e3, e4, e5, e6, ?_, e8⟩
      intro x hx
      rcases List.mem_cons.1 hx with rfl | hx
      · exact ho1 (g, i) (by simp)
      · exact e7 x hx

/-- An attribute set by one handler only. -/
theorem Spec.Runs.single {hs : List (Handler σ)} {get : σ → α} {i : Nat} {f : Match → Except Exc α}
    {c : List (PyStr × Nat)} {s s' : σ} (hr : Spec.Runs hs c s (.ok s')) (ho : Ordered c)
    {r : RE} (hre : (hs[i]?).map (·.regexp) = some r)
    (hset : ∀ h, hs[i]? = some h → ∀ m s s', h.run m s = .ok s' → f m = .ok (get s'))
    (hkeep : ∀ j, j ≠ i → Keeps hs get j) :
    Spec.FromGroup c i r f (get s) (get s') := by
  by_cases hex : ∃ g, (g, i) ∈ c
  · obtain ⟨g, hg⟩ := hex
    obtain ⟨c1, c2, h, m, s1, s2, -, h2, h3, h4, h5, h6, h7, h8⟩ := hr.split ho hg
    left
    have hr : h.regexp = r := by rw [h3] at hre; simpa using hre
    refine ⟨g, m, hg, hr ▸ h4, ?_⟩
    rw [h6.keep (fun x hx => hkeep x.2 (by have := h8 x hx; omega))]
    exact hset h h3 m s1 s2 h5
  · right
    simp only [not_exists] at hex
    refine ⟨hex, hr.keep fun x hx => hkeep x.2 ?_⟩
    rintro rfl
    exact hex x.1 hx

/-- A list attribute extended by several handlers. -/
theorem Spec.Runs.many {hs : List (Handler σ)} {get : σ → List α} {lo hi : Nat}
    {f : Match → Except Exc α} {c : List (PyStr × Nat)} {s s' : σ} (hr : Spec.Runs hs c s (.ok s'))
    {r : RE} (hre : ∀ i h, lo ≤ i → i ≤ hi → hs[i]? = some h → h.regexp = r)
    (hset : ∀ i h, lo ≤ i → i ≤ hi → hs[i]? = some h → ∀ m s s', h.run m s = .ok s' →
      ∃ x, f m = .ok x ∧ get s' = get s ++ [x])
    (hkeep : ∀ j, j < lo ∨ hi < j → Keeps hs get j) :
    ∃ xs, get s' = get s ++ xs ∧ Spec.FromGroups c lo hi r f xs := by
  generalize hout : (Except.ok s' : Except Exc σ) = out at hr
  induction hr with
  | nil s => cases hout; exact ⟨[], by simp, .nil⟩
  | fail _ _ _ => cases hout
  | @step g i rest s h m s1 out h1 h2 h3 _ ih =>
    obtain ⟨xs, e1, e2⟩ := ih hout
    by_cases hI : lo ≤ i ∧ i ≤ hi
    · obtain ⟨x, hx1, hx2⟩ := hset i h hI.1 hI.2 h1 m s s1 h3
      refine ⟨x :: xs, by rw [e1, hx2]; simp, ?_⟩
      unfold Spec.FromGroups Spec.taken at e2 ⊢
      rw [List.filter_cons]
      simp only [hI, and_self, decide_true, if_true, List.map_cons]
      exact Spec.Each.cons ⟨m, hre i h hI.1 hI.2 h1 ▸ h2, hx1⟩ e2
    · refine ⟨xs, ?_, ?_⟩
      · rw [e1, hkeep i (by omega) h h1 m s s1 h3]
      · unfold Spec.FromGroups Spec.taken at e2 ⊢
        rw [List.filter_cons]
        simp only [hI, decide_false, Bool.false_eq_true, if_false]
        exact e2

/-- An attribute overwritten by several handlers. -/
theorem Spec.Runs.last {hs : List (Handler σ)} {get : σ → α} {lo hi : Nat}
    {f : Match → Except Exc α} {c : List (PyStr × Nat)} {s s' : σ} (hr : Spec.Runs hs c s (.ok s'))
    {r : RE} (hre : ∀ i h, lo ≤ i → i ≤ hi → hs[i]? = some h → h.regexp = r)
    (hset : ∀ i h, lo ≤ i → i ≤ hi → hs[i]? = some h → ∀ m s s', h.run m s = .ok s' →
      f m = .ok (get s'))
    (hkeep : ∀ j, j < lo ∨ hi < j → Keeps hs get j) :
    Spec.FromLast c lo hi r f (get s) (get s') := by
  generalize hout : (Except.ok s' : Except Exc σ) = out at hr
  induction hr with
  | nil s => cases hout; exact .inr ⟨rfl, rfl⟩
  | fail _ _ _ => cases hout
  | @step g i rest s h m s1 out h1 h2 h3 _ ih =>
    have ih := ih hout
    unfold Spec.FromLast Spec.taken at ih ⊢
    rw [List.filter_cons]
    by_cases hI : lo ≤ i ∧ i ≤ hi
    · simp only [hI, and_self, decide_true, if_true, List.map_cons, List.getLast?_cons] 
      left
      rcases ih with ⟨g', m', e1, e2, e3⟩ | ⟨e1, e2⟩
      · exact ⟨g', m', by rw [e1]; rfl, e2, e3⟩
      · refine ⟨g, m, by rw [e1]; rfl, hre i h hI.1 hI.2 h1 ▸ h2, ?_⟩
        rw [e2]; exact hset i h hI.1 hI.2 h1 m s s1 h3
    · simp only [hI, decide_false, Bool.false_eq_true, if_false]
      rw [hkeep i (by omega) h h1 m s s1 h3] at ih
      exact ih

/-- General form: `P xs s` relates the readings so far to the state, and the reading may depend on
a part `k` of the state that no later handler touches. -/
theorem Spec.Runs.trace {hs : List (Handler σ)} {P : List α → σ → Prop} {k : σ → β} {lo hi : Nat}
    {f : β → Match → Except Exc α} {c : List (PyStr × Nat)} {s s' : σ}
    (hr : Spec.Runs hs c s (.ok s')) (ho : Ordered c)
    {r : RE} (hre : ∀ i h, lo ≤ i → i ≤ hi → hs[i]? = some h → h.regexp = r)
    (hk : ∀ j, lo ≤ j → Keeps hs k j)
    (hset : ∀ i h, lo ≤ i → i ≤ hi → hs[i]? = some h → ∀ m s s' xs, h.run m s = .ok s' → P xs s →
      ∃ x, f (k s) m = .ok x ∧ P (xs ++ [x]) s')
    (hkeep : ∀ j h, j < lo ∨ hi < j → hs[j]? = some h → ∀ m s s' xs, h.run m s = .ok s' →
      P xs s → P xs s') {xs0 : List α} (h0 : P xs0 s) :
    ∃ xs, Spec.FromGroups c lo hi r (f (k s')) xs ∧ P (xs0 ++ xs) s' := by
  generalize hout : (Except.ok s' : Except Exc σ) = out at hr
  induction hr generalizing xs0 with
  | nil s => cases hout; exact ⟨[], .nil, by simpa using h0⟩
  | fail _ _ _ => cases hout
  | @step g i rest s h m s1 out h1 h2 h3 hrest ih =>
    obtain ⟨ho1, ho2⟩ := List.pairwise_cons.1 ho
    by_cases hI : lo ≤ i ∧ i ≤ hi
    · obtain ⟨x, hx1, hx2⟩ := hset i h hI.1 hI.2 h1 m s s1 xs0 h3 h0
      obtain ⟨xs, e1, e2⟩ := ih ho2 hx2 hout
      refine ⟨x :: xs, ?_, by simpa using e2⟩
      unfold Spec.FromGroups Spec.taken at e1 ⊢
      rw [List.filter_cons]
      simp only [hI, and_self, decide_true, if_true, List.map_cons]
      refine Spec.Each.cons ⟨m, hre i h hI.1 hI.2 h1 ▸ h2, ?_⟩ e1
      subst hout
      rw [hrest.keep (get := k) (fun y hy => hk y.2 (by have := ho1 y hy; simp only at this; omega)),
        hk i hI.1 h h1 m s s1 h3]
      exact hx1
    · obtain ⟨xs, e1, e2⟩ := ih ho2 (hkeep i h (by omega) h1 m s s1 xs0 h3 h0) hout
      refine ⟨xs, ?_, e2⟩
      unfold Spec.FromGroups Spec.taken at e1 ⊢
      rw [List.filter_cons]
      simp only [hI, decide_false, Bool.false_eq_true, if_false]
      exact e1

/-- An attribute set by one handler, whose reading depends on a part `k` of the state that is final
by then. -/
theorem Spec.Runs.single' {hs : List (Handler σ)} {get : σ → α} {k : σ → β} {i : Nat}
    {f : β → Match → Except Exc α}
    {c : List (PyStr × Nat)} {s s' : σ} (hr : Spec.Runs hs c s (.ok s')) (ho : Ordered c)
    {r : RE} (hre : (hs[i]?).map (·.regexp) = some r)
    (hk : ∀ j, i ≤ j → Keeps hs k j)
    (hset : ∀ h, hs[i]? = some h → ∀ m s s', h.run m s = .ok s' → f (k s) m = .ok (get s'))
    (hkeep : ∀ j, j ≠ i → Keeps hs get j) :
    Spec.FromGroup c i r (f (k s')) (get s) (get s') := by
  by_cases hex : ∃ g, (g, i) ∈ c
  · obtain ⟨g, hg⟩ := hex
    obtain ⟨c1, c2, h, m, s1, s2, -, h2, h3, h4, h5, h6, h7, h8⟩ := hr.split ho hg
    left
    have hr : h.regexp = r := by rw [h3] at hre; simpa using hre
    refine ⟨g, m, hg, hr ▸ h4, ?_⟩
    rw [h6.keep (get := get) (fun x hx => hkeep x.2 (by have := h8 x hx; omega)),
      h6.keep (get := k) (fun x hx => hk x.2 (by have := h8 x hx; omega)),
      hk i (Nat.le_refl i) h h3 m s1 s2 h5]
    exact hset h h3 m s1 s2 h5
  · right
    simp only [not_exists] at hex
    refine ⟨hex, hr.keep fun x hx => hkeep x.2 ?_⟩
    rintro rfl
    exact hex x.1 hx

theorem GroupList.add_ok {g g' : GroupList α} {x : α} (h : g.add x = .ok g') :
    g' = { g with list := g.list ++ [x] } := by
  unfold GroupList.add at h
  split at h
  · cases h
  · simpa using h.symm

/-- Unfold the method of a handler in the hypothesis that it succeeded. -/
macro "run_open" hs:ident : tactic => `(tactic|
  simp only [Metar.handleType, Metar.handleStation, Metar.handleTime, Metar.handleModifier,
    Metar.handleWindVariation, Metar.handleMinimumVisibility, Metar.handleRunwayRange,
    Metar.handleTemperatures, Metar.handlePressure, Metar.handleRecentWeather,
    Metar.handleWindshear, Metar.handleSeaState, Metar.handleRunwayState, Metar.lift, liftCore_ok,
    Taf.handleType, Taf.handleStation, Taf.handleTime, Taf.handleModifier, Taf.handleMissing,
    Taf.handleValid, Taf.handleCancelled, Taf.lift, ChangePeriod.lift, ChangeForecasted.lift,
    ChangePeriod.handleTrendIndicator, ChangePeriod.handleTimePeriod,
    ChangeForecasted.handleIndicator, ChangeForecasted.handleValid,
    Core.handleWind, Core.handlePrevailing, Core.handleWeather, Core.handleCloud,
    bind_ok, pure_ok, Except.ok.injEq] at $hs:ident)

/-- The method sets the attribute to the reading of the group. -/
macro "run_set" hs:ident : tactic => `(tactic|
  (run_open $hs
   first
    | (subst $hs; rfl)
    | (obtain ⟨_, e, e0⟩ := $hs; subst e0; exact e)
    | (obtain ⟨_, ⟨_, e, e1⟩, e0⟩ := $hs; subst e0; subst e1; exact e)))

/-- The method adds the reading of the group to the list. -/
macro "run_add" hs:ident : tactic => `(tactic|
  (run_open $hs
   first
    | (obtain ⟨_, e, e0⟩ := $hs; have e := GroupList.add_ok e; subst e0; subst e
       exact ⟨_, rfl, rfl⟩)
    | (obtain ⟨_, e1, _, e, e0⟩ := $hs; have e := GroupList.add_ok e; subst e0; subst e
       exact ⟨_, e1, rfl⟩)
    | (obtain ⟨_, ⟨_, e, e2⟩, e0⟩ := $hs; have e := GroupList.add_ok e; subst e0; subst e2; subst e
       exact ⟨_, rfl, rfl⟩)
    | (obtain ⟨_, ⟨_, e1, _, e, e2⟩, e0⟩ := $hs; have e := GroupList.add_ok e; subst e0; subst e2
       subst e; exact ⟨_, e1, rfl⟩)))

/-- The method leaves the cursor of the list alone. -/
macro "run_cursor" hs:ident : tactic => `(tactic|
  (run_open $hs
   first
    | (obtain ⟨_, e, e0⟩ := $hs; have e := GroupList.add_ok e; subst e0; subst e; rfl)
    | (obtain ⟨_, e1, _, e, e0⟩ := $hs; have e := GroupList.add_ok e; subst e0; subst e; rfl)
    | (obtain ⟨_, ⟨_, e, e2⟩, e0⟩ := $hs; have e := GroupList.add_ok e; subst e0; subst e2; subst e
       rfl)
    | (obtain ⟨_, ⟨_, e1, _, e, e2⟩, e0⟩ := $hs; have e := GroupList.add_ok e; subst e0; subst e2
       subst e; rfl)))

/-- The method sets its own attribute only. -/
macro "run_effect" hs:ident : tactic => `(tactic|
  first
    | (subst $hs; constructor <;> first | rfl | (intro _; rfl) | (intro hj; omega))
    | (obtain ⟨_, _, e0⟩ := $hs; subst e0; constructor <;> first | rfl | (intro _; rfl) | (intro hj; omega))
    | (obtain ⟨_, ⟨_, _, e1⟩, e0⟩ := $hs; subst e0; subst e1
       constructor <;> first | rfl | (intro _; rfl) | (intro hj; omega))
    | (obtain ⟨_, _, _, _, e0⟩ := $hs; subst e0
       constructor <;> first | rfl | (intro _; rfl) | (intro hj; omega))
    | (obtain ⟨_, ⟨_, _, _, _, e1⟩, e0⟩ := $hs; subst e0; subst e1
       constructor <;> first | rfl | (intro _; rfl) | (intro hj; omega)))

end Verif
