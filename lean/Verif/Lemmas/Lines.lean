import Verif.Lemmas.Decoded
import Verif.Spec.Lines

/-
The text buffer of a report.
-/

namespace Verif
open Spec

variable {σ α β : Type}

/-- The text of an object that may fail to be made. -/
def okStr (x : Except Exc α) (str : α → PyStr) : PyStr :=
  match x with
  | .ok x => str x
  | .error _ => []

theorem okStr_ok {x : Except Exc α} {v : α} (h : x = .ok v) (str : α → PyStr) : okStr x str = str v := by
  rw [h]; rfl

/-- The line written for a decoded group. -/
def lineOf (hs : List (Handler σ)) (txt : Nat → Match → PyStr) (x : PyStr × Nat) : PyStr :=
  match hs[x.2]? with
  | none => []
  | some h =>
    match h.regexp.match x.1 with
    | none => []
    | some m => txt x.2 m

theorem lineOf_eq {hs : List (Handler σ)} {txt : Nat → Match → PyStr} {g : PyStr} {i : Nat}
    {h : Handler σ} {m : Match} (h1 : hs[i]? = some h) (h2 : h.regexp.match g = some m) :
    lineOf hs txt (g, i) = txt i m := by
  simp [lineOf, h1, h2]

theorem unlines_append (a b : List PyStr) : unlines (a ++ b) = unlines a ++ unlines b :=
  List.flatMap_append

/-- The lines written by the handlers; their text may depend on a part `k` of the state, final by
then. -/
theorem Spec.Runs.lines {hs : List (Handler σ)} {get : σ → PyStr} {k : σ → β}
    {txt : β → Nat → Match → PyStr} {c : List (PyStr × Nat)} {s s' : σ}
    (hr : Spec.Runs hs c s (.ok s')) (ho : Ordered c)
    (hset : ∀ x ∈ c, ∀ h m s s', hs[x.2]? = some h → h.run m s = .ok s' →
      get s' = get s ++ (txt (k s') x.2 m ++ py!"\n"))
    (hk : ∀ j i h m m' s s', j < i → hs[i]? = some h → h.run m' s = .ok s' →
      txt (k s') j m = txt (k s) j m) :
    get s' = get s ++ unlines (c.map (lineOf hs (txt (k s')))) := by
  generalize hout : (Except.ok s' : Except Exc σ) = out at hr
  induction hr with
  | nil s => cases hout; simp [unlines]
  | fail _ _ _ => cases hout
  | @step g i rest s h m s1 out h1 h2 h3 hrest ih =>
    obtain ⟨ho1, ho2⟩ := List.pairwise_cons.1 ho
    have ih2 := ih ho2 (fun x hx => hset x (by simp [hx])) hout
    subst hout
    have hkeep : txt (k s') i m = txt (k s1) i m := by
      have : ∀ (c : List (PyStr × Nat)) (s1 s' : σ), Spec.Runs hs c s1 (.ok s') → (∀ y ∈ c, i < y.2) →
          txt (k s') i m = txt (k s1) i m := by
        intro c s1 s' hr hi
        generalize hout : (Except.ok s' : Except Exc σ) = out at hr
        induction hr with
        | nil s => cases hout; rfl
        | fail _ _ _ => cases hout
        | @step g' i' rest' s2 h' m' s3 out' e1 e2 e3 _ ih' =>
          rw [ih' (fun y hy => hi y (by simp [hy])) hout]
          exact hk i i' h' m m' s2 s3 (hi (g', i') (by simp)) e1 e3
      exact this rest s1 s' hrest fun y hy => ho1 y hy
    rw [ih2, hset (g, i) (by simp) h m s s1 h1 h3, List.map_cons, lineOf_eq h1 h2, hkeep]
    simp [unlines]

/-! ### Cutting the decoded groups into ranges of positions -/

def seg (c : List (PyStr × Nat)) (lo hi : Nat) : List (PyStr × Nat) :=
  c.filter fun x => decide (lo ≤ x.2 ∧ x.2 ≤ hi)

theorem seg_all {c : List (PyStr × Nat)} {n : Nat} (h : ∀ x ∈ c, x.2 ≤ n) : seg c 0 n = c := by
  unfold seg
  rw [List.filter_eq_self]
  intro x hx
  simp [h x hx]

theorem seg_split {c : List (PyStr × Nat)} (ho : Ordered c) {lo hi : Nat} (mid : Nat) (h1 : lo ≤ mid)
    (h2 : mid < hi) : seg c lo hi = seg c lo mid ++ seg c (mid + 1) hi := by
  unfold seg
  induction c with
  | nil => rfl
  | cons x c ih =>
    obtain ⟨ho1, ho2⟩ := List.pairwise_cons.1 ho
    have ih := ih ho2
    simp only [List.filter_cons, decide_eq_true_eq]
    by_cases a1 : lo ≤ x.2 ∧ x.2 ≤ mid
    · rw [if_pos a1, if_pos (by omega : lo ≤ x.2 ∧ x.2 ≤ hi),
        if_neg (by omega : ¬ (mid + 1 ≤ x.2 ∧ x.2 ≤ hi)), ih, List.cons_append]
    · by_cases a2 : mid + 1 ≤ x.2 ∧ x.2 ≤ hi
      · have e : c.filter (fun x => decide (lo ≤ x.2 ∧ x.2 ≤ mid)) = [] := by
          rw [List.filter_eq_nil_iff]
          intro y hy
          have := ho1 y hy
          simp only [decide_eq_true_eq]; omega
        rw [if_neg a1, if_pos (by omega : lo ≤ x.2 ∧ x.2 ≤ hi), if_pos a2, ih, e]
        rfl
      · rw [if_neg a1, if_neg a2, if_neg (by omega : ¬ (lo ≤ x.2 ∧ x.2 ≤ hi)), ih]

theorem seg_one {c : List (PyStr × Nat)} (ho : Ordered c) {g : PyStr} {i : Nat} (h : (g, i) ∈ c) :
    seg c i i = [(g, i)] := by
  unfold seg
  induction c with
  | nil => cases h
  | cons x c ih =>
    obtain ⟨ho1, ho2⟩ := List.pairwise_cons.1 ho
    simp only [List.filter_cons]
    rcases List.mem_cons.1 h with rfl | h
    · have e : c.filter (fun x => decide (i ≤ x.2 ∧ x.2 ≤ i)) = [] := by
        rw [List.filter_eq_nil_iff]
        intro y hy
        have := ho1 y hy
        simp at this ⊢; omega
      rw [if_pos (by simp), e]
    · have := ho1 _ h
      have a : ¬ (i ≤ x.2 ∧ x.2 ≤ i) := by simp only at this; omega
      simp only [a, decide_false, Bool.false_eq_true, if_false]
      exact ih ho2 h

theorem seg_none {c : List (PyStr × Nat)} {i : Nat} (h : ∀ g, (g, i) ∉ c) : seg c i i = [] := by
  unfold seg
  rw [List.filter_eq_nil_iff]
  rintro ⟨g, j⟩ hx
  simp only [decide_eq_true_eq]
  intro ⟨h1, h2⟩
  have : j = i := by omega
  exact h g (this ▸ hx)

theorem has_iff {c : List (PyStr × Nat)} {i : Nat} : has c i = true ↔ ∃ g, (g, i) ∈ c := by
  simp only [has, List.any_eq_true, beq_iff_eq]
  constructor
  · rintro ⟨⟨g, j⟩, h, rfl⟩; exact ⟨g, h⟩
  · rintro ⟨g, h⟩; exact ⟨_, h, rfl⟩

/-- The line of an attribute read from one group. -/
theorem line_single {hs : List (Handler σ)} {txt : Nat → Match → PyStr} {c : List (PyStr × Nat)}
    (ho : Ordered c) {i : Nat} {re : RE} {f : Match → Except Exc α} {d v : α} {str : α → PyStr}
    (hf : FromGroup c i re f d v) (hre : (hs[i]?).map (·.regexp) = some re)
    (ht : ∀ m, txt i m = okStr (f m) str) :
    (seg c i i).map (lineOf hs txt) = line c i (str v) := by
  unfold line
  rcases hf with ⟨g, m, h1, h2, h3⟩ | ⟨h1, h2⟩
  · rw [seg_one ho h1, if_pos (has_iff.2 ⟨g, h1⟩)]
    cases hh : hs[i]? with
    | none => rw [hh] at hre; cases hre
    | some h =>
      rw [hh] at hre
      simp only [Option.map_some, Option.some.injEq] at hre
      rw [List.map_cons, List.map_nil, lineOf_eq hh (hre ▸ h2), ht, okStr_ok h3]
  · rw [seg_none h1, if_neg]
    · rfl
    · rw [has_iff]
      rintro ⟨g, hg⟩
      exact h1 g hg

/-- The lines of a list of attributes. -/
theorem line_many {hs : List (Handler σ)} {txt : Nat → Match → PyStr} {c : List (PyStr × Nat)}
    {lo hi : Nat} {re : RE} {f : Match → Except Exc α} {vs : List α} {str : α → PyStr}
    (hf : FromGroups c lo hi re f vs) (hre : ∀ i, lo ≤ i → i ≤ hi → (hs[i]?).map (·.regexp) = some re)
    (ht : ∀ i m, lo ≤ i → i ≤ hi → txt i m = okStr (f m) str) :
    (seg c lo hi).map (lineOf hs txt) = vs.map str := by
  unfold FromGroups taken at hf
  have hmem : ∀ x ∈ seg c lo hi, lo ≤ x.2 ∧ x.2 ≤ hi := by
    intro x hx
    simpa using (List.mem_filter.1 hx).2
  change Each _ ((seg c lo hi).map (·.1)) vs at hf
  generalize seg c lo hi = l at hf hmem ⊢
  induction l generalizing vs with
  | nil =>
    cases hf
    rfl
  | cons x l ih =>
    rw [List.map_cons] at hf
    cases hf with
    | cons h1 h2 =>
      obtain ⟨m, e1, e2⟩ := h1
      have hx := hmem x (by simp)
      have hr := hre x.2 hx.1 hx.2
      cases hh : hs[x.2]? with
      | none => rw [hh] at hr; cases hr
      | some h =>
        rw [hh] at hr
        simp only [Option.map_some, Option.some.injEq] at hr
        rw [List.map_cons, List.map_cons, ih h2 fun y hy => hmem y (by simp [hy]),
          show x = (x.1, x.2) from rfl, lineOf_eq hh (hr ▸ e1), ht _ _ hx.1 hx.2, okStr_ok e2]

/-! ### METAR -/

def Metar.text (db : Database) (now : Now) (a : Args) (j : Nat) (m : Match) : PyStr :=
  match j with
  | 0 => okStr (.ok (ReportType.new m.string)) ReportType.str
  | 1 => okStr (Station.new db (some m.string) py!"ICAO") (·.str db)
  | 2 => okStr (Time.fromMetar now (some m) a.year a.month) Time.str
  | 3 => okStr (.ok (Modifier.new (some m.string))) Modifier.str
  | 4 => okStr (MetarWind.new m) MetarWind.str
  | 5 => okStr (WindVariation.new m) WindVariation.str
  | 6 => okStr (Verif.prevailing m) Visibility.str
  | 7 => okStr (Verif.minimumVisibility m) Visibility.str
  | 8 | 9 | 10 => okStr (RunwayRange.new m) RunwayRange.str
  | 11 | 12 | 13 => okStr (.ok (Weather.new m)) Weather.str
  | 14 | 15 | 16 | 17 => okStr (Cloud.fromMetar m) Cloud.str
  | 18 => okStr (Temperatures.new m) Temperatures.str
  | 19 | 20 => okStr (MetarPressure.new m) MetarPressure.str
  | 21 => okStr (.ok (RecentWeather.new m)) RecentWeather.str
  | 22 | 23 | 24 => okStr (.ok (Windshear.new m)) Windshear.str
  | 25 => okStr (SeaState.new m) SeaState.str
  | 26 => okStr (.ok (RunwayState.new m)) RunwayState.str
  | _ => []

/-- The method writes the text of the object it makes. -/
macro "run_line" hs:ident : tactic => `(tactic|
  (run_open $hs
   first
    | (subst $hs; rfl)
    | (obtain ⟨_, e, e0⟩ := $hs; subst e0; simp only [Metar.text, okStr_ok e]; rfl)
    | (obtain ⟨_, ⟨_, e, e1⟩, e0⟩ := $hs; subst e0; subst e1; simp only [Metar.text, okStr_ok e]; rfl)
    | (obtain ⟨_, e, e0⟩ := $hs; subst e0; rfl)
    | (obtain ⟨_, e1, _, e, e0⟩ := $hs; subst e0; simp only [Metar.text, okStr_ok e1]; rfl)
    | (obtain ⟨_, ⟨_, e, e2⟩, e0⟩ := $hs; subst e0; subst e2; rfl)
    | (obtain ⟨_, ⟨_, e1, _, e, e2⟩, e0⟩ := $hs; subst e0; subst e2
       simp only [Metar.text, okStr_ok e1]; rfl)))

theorem Metar.writes {db : Database} {now : Now} {a : Args} {j : Nat} {h : Handler Metar}
    {m : Match} {r r' : Metar} (hh : (Metar.handlers db now a)[j]? = some h)
    (hr : h.run m r = .ok r') :
    r'.core.string = r.core.string ++ (Metar.text db now a j m ++ py!"\n") := by
  rw [← List.mk_mem_zipIdx_iff_getElem?] at hh
  simp only [Metar.handlers, List.zipIdx_cons, List.zipIdx_nil, List.mem_cons, Prod.mk.injEq,
    List.not_mem_nil, or_false, Nat.zero_add, Nat.reduceAdd] at hh
  rcases hh with ⟨rfl, rfl⟩ | ⟨rfl, rfl⟩ | ⟨rfl, rfl⟩ | ⟨rfl, rfl⟩ | ⟨rfl, rfl⟩ | ⟨rfl, rfl⟩ |
    ⟨rfl, rfl⟩ | ⟨rfl, rfl⟩ | ⟨rfl, rfl⟩ | ⟨rfl, rfl⟩ | ⟨rfl, rfl⟩ | ⟨rfl, rfl⟩ | ⟨rfl, rfl⟩ |
    ⟨rfl, rfl⟩ | ⟨rfl, rfl⟩ | ⟨rfl, rfl⟩ | ⟨rfl, rfl⟩ | ⟨rfl, rfl⟩ | ⟨rfl, rfl⟩ | ⟨rfl, rfl⟩ |
    ⟨rfl, rfl⟩ | ⟨rfl, rfl⟩ | ⟨rfl, rfl⟩ | ⟨rfl, rfl⟩ | ⟨rfl, rfl⟩ | ⟨rfl, rfl⟩ | ⟨rfl, rfl⟩ <;>
    run_line hr

/-- The positions of the decoded groups lie in the table. -/
theorem Spec.Runs.bounded {hs : List (Handler σ)} {c : List (PyStr × Nat)} {s s' : σ}
    (hr : Spec.Runs hs c s (.ok s')) : ∀ x ∈ c, x.2 < hs.length := by
  generalize hout : (Except.ok s' : Except Exc σ) = out at hr
  induction hr with
  | nil s => intro x hx; cases hx
  | fail _ _ _ => cases hout
  | step h1 _ _ _ ih =>
    intro x hx
    rcases List.mem_cons.1 hx with rfl | hx
    · exact (List.getElem?_eq_some_iff.1 h1).1
    · exact ih hout x hx

theorem Metar.body_text {db : Database} {now : Now} {a : Args} {c : List (PyStr × Nat)}
    {r0 r1 : Metar} (hr : Spec.Runs (Metar.handlers db now a) c r0 (.ok r1)) (ho : Ordered c) :
    r1.core.string = r0.core.string ++ unlines (c.map (lineOf (Metar.handlers db now a)
      (Metar.text db now a))) :=
  hr.lines (get := fun r => r.core.string) (k := fun _ => ()) (txt := fun _ => Metar.text db now a) ho
    (fun _ _ _ _ _ _ h1 h2 => Metar.writes h1 h2) fun _ _ _ _ _ _ _ _ _ _ => rfl

/-- The pressures read from the body of a METAR. -/
theorem Metar.pressures {db : Database} {now : Now} {a : Args} {c : List (PyStr × Nat)}
    {r0 r1 : Metar} (hr : Spec.Runs (Metar.handlers db now a) c r0 (.ok r1)) (ho : Ordered c) :
    ∃ ps, FromGroups c 19 20 MetarRegExp.PRESSURE MetarPressure.new ps ∧
      ∀ p, ps.getLast? = some p → r1.pressure = p := by
  have := hr.trace (α := MetarPressure) (lo := 19) (hi := 20) (k := fun _ => ())
    (f := fun _ => MetarPressure.new) (r := MetarRegExp.PRESSURE) (xs0 := [])
    (P := fun ps r => ∀ p, ps.getLast? = some p → r.pressure = p) ho ?_
    (fun _ _ _ _ _ _ _ _ => rfl) ?_ ?_ (by simp)
  · simpa using this
  · intro i h h1 h2 hh
    have : i = 19 ∨ i = 20 := by omega
    rcases this with rfl | rfl <;> cases hh <;> rfl
  · intro i h h1 h2 hh m s s' xs hs hp
    have : i = 19 ∨ i = 20 := by omega
    have hs : Metar.handlePressure m s = .ok s' := by
      rcases this with rfl | rfl <;> cases hh <;> exact hs
    run_open hs
    obtain ⟨x, e, rfl⟩ := hs
    refine ⟨x, e, ?_⟩
    intro p hp
    simp only [List.getLast?_concat, Option.some.injEq] at hp
    rw [← hp]
    rfl
  · intro j h hj hh m s s' xs hs hp p hp'
    rw [(Metar.effect hh hs).pressure hj]
    exact hp p hp'

theorem Metar.body_lines {db : Database} {now : Now} {a : Args} {c : List (PyStr × Nat)}
    {r0 r : Metar} (ho : Ordered c) (hb : ∀ x ∈ c, x.2 ≤ 26) (hR : Metar.Reading db now a c r0 r)
    {ps : List MetarPressure} (hp : FromGroups c 19 20 MetarRegExp.PRESSURE MetarPressure.new ps) :
    c.map (lineOf (Metar.handlers db now a) (Metar.text db now a)) = metarLines db c ps r := by
  have hall : c = seg c 0 0 ++ seg c 1 1 ++ seg c 2 2 ++ seg c 3 3 ++ seg c 4 4 ++ seg c 5 5 ++
      seg c 6 6 ++ seg c 7 7 ++ seg c 8 10 ++ seg c 11 13 ++ seg c 14 17 ++ seg c 18 18 ++
      seg c 19 20 ++ seg c 21 21 ++ seg c 22 24 ++ seg c 25 25 ++ seg c 26 26 := by
    rw [← seg_split ho 0 (by omega) (by omega), ← seg_split ho 1 (by omega) (by omega),
      ← seg_split ho 2 (by omega) (by omega), ← seg_split ho 3 (by omega) (by omega),
      ← seg_split ho 4 (by omega) (by omega), ← seg_split ho 5 (by omega) (by omega),
      ← seg_split ho 6 (by omega) (by omega), ← seg_split ho 7 (by omega) (by omega),
      ← seg_split ho 10 (by omega) (by omega), ← seg_split ho 13 (by omega) (by omega),
      ← seg_split ho 17 (by omega) (by omega), ← seg_split ho 18 (by omega) (by omega),
      ← seg_split ho 20 (by omega) (by omega), ← seg_split ho 21 (by omega) (by omega),
      ← seg_split ho 24 (by omega) (by omega), ← seg_split ho 25 (by omega) (by omega),
      seg_all hb]
  have h3 : ∀ i, 8 ≤ i → i ≤ 10 → i = 8 ∨ i = 9 ∨ i = 10 := by omega
  have h11 : ∀ i, 11 ≤ i → i ≤ 13 → i = 11 ∨ i = 12 ∨ i = 13 := by omega
  have h14 : ∀ i, 14 ≤ i → i ≤ 17 → i = 14 ∨ i = 15 ∨ i = 16 ∨ i = 17 := by omega
  have h19 : ∀ i, 19 ≤ i → i ≤ 20 → i = 19 ∨ i = 20 := by omega
  have h22 : ∀ i, 22 ≤ i → i ≤ 24 → i = 22 ∨ i = 23 ∨ i = 24 := by omega
  conv => lhs; rw [hall]
  simp only [List.map_append, metarLines]
  rw [line_single (str := ReportType.str) ho hR.type rfl fun _ => rfl,
    line_single (str := fun x => x.str db) ho hR.station rfl fun _ => rfl,
    line_single (str := Time.str) ho hR.time rfl fun _ => rfl,
    line_single (str := Modifier.str) ho hR.modifier rfl fun _ => rfl,
    line_single (str := MetarWind.str) ho hR.wind rfl fun _ => rfl,
    line_single (str := WindVariation.str) ho hR.windVariation rfl fun _ => rfl,
    line_single (str := Visibility.str) ho hR.prevailing rfl fun _ => rfl,
    line_single (str := Visibility.str) ho hR.minimum rfl fun _ => rfl,
    line_many (str := RunwayRange.str) hR.ranges.1
      (fun i a b => by rcases h3 i a b with rfl | rfl | rfl <;> rfl)
      (fun i m a b => by rcases h3 i a b with rfl | rfl | rfl <;> rfl),
    line_many (str := Weather.str) hR.weathers.1
      (fun i a b => by rcases h11 i a b with rfl | rfl | rfl <;> rfl)
      (fun i m a b => by rcases h11 i a b with rfl | rfl | rfl <;> rfl),
    line_many (str := Cloud.str) hR.clouds.1
      (fun i a b => by rcases h14 i a b with rfl | rfl | rfl | rfl <;> rfl)
      (fun i m a b => by rcases h14 i a b with rfl | rfl | rfl | rfl <;> rfl),
    line_single (str := Temperatures.str) ho hR.temperatures rfl fun _ => rfl,
    line_many (str := MetarPressure.str) hp
      (fun i a b => by rcases h19 i a b with rfl | rfl <;> rfl)
      (fun i m a b => by rcases h19 i a b with rfl | rfl <;> rfl),
    line_single (str := RecentWeather.str) ho hR.recent rfl fun _ => rfl,
    line_many (str := Windshear.str) hR.windshears.1
      (fun i a b => by rcases h22 i a b with rfl | rfl | rfl <;> rfl)
      (fun i m a b => by rcases h22 i a b with rfl | rfl | rfl <;> rfl),
    line_single (str := SeaState.str) ho hR.sea rfl fun _ => rfl,
    line_single (str := RunwayState.str) ho hR.runwayState rfl fun _ => rfl]

/-- The last of the objects read from several groups is the one kept. -/
theorem hr_last {c : List (PyStr × Nat)} {lo hi : Nat} {re : RE} {f : Match → Except Exc α}
    {d v p : α} {ps : List α} (h : FromLast c lo hi re f d v) (hm : (taken c lo hi).getLast? ≠ none)
    (hp : FromGroups c lo hi re f ps) (hl : ps.getLast? = some p) : v = p := by
  rcases h with ⟨g, m, h1, h2, h3⟩ | ⟨h1, -⟩
  · unfold FromGroups at hp
    generalize taken c lo hi = l at hp h1
    induction hp with
    | nil => cases h1
    | @cons x y xs ys hxy hrest ih =>
      cases hrest with
      | nil =>
        simp only [List.getLast?_singleton, Option.some.injEq] at h1 hl
        subst h1; subst hl
        obtain ⟨m', e1, e2⟩ := hxy
        rw [h2] at e1
        cases e1
        rw [h3] at e2
        cases e2
        rfl
      | cons a b =>
        rw [List.getLast?_cons_cons] at h1 hl
        exact ih hl h1
  · rw [h1] at hm
    simp at hm

theorem Metar.start_string (raw : PyStr) (time : Time) : (Metar.start raw time).core.string = [] := rfl

/-- The text of a METAR. -/
theorem Metar.new_lines {db : Database} {clock : Clock} {code : PyStr} {a : Args} {r : Metar}
    (h : Metar.new db clock code a = .ok r) {c : List (PyStr × Nat)}
    (hc : Spec.Decodes (Metar.handlers db (clock 2) a) (Spec.metarGroups r.body) c) :
    ∃ ps, FromGroups c 19 20 MetarRegExp.PRESSURE MetarPressure.new ps ∧
      (∀ p, ps.getLast? = some p → r.pressure = p) ∧
      r.str = strip (unlines (metarLines db c ps r ++ r.weatherTrends.list.map ChangePeriod.str)) := by
  obtain ⟨t0, time, asg, r1, -, e0, e1, e2, e9, e3, e4, -, -, -, -, e5, e6⟩ := Metar.new_reading h
  have hb : Metar.bodyText (normalizeCode code) =
      sanitizeWindshear (sanitizeVisibility r.body) := by
    unfold Metar.body
    rw [e5]
    rfl
  have he : c = Spec.consumed (splitC 32 (Metar.bodyText (normalizeCode code))) asg := by
    rw [Spec.metarGroups, ← hb] at hc
    exact ((decodes_iff _ _ _).1 hc).trans ((decodes_iff _ _ _).1 ⟨asg, e1, e2, rfl⟩).symm
  rw [← he] at e3 e4 e9
  obtain ⟨ps, h1, h2⟩ := Metar.pressures e9 e3
  have hbd : ∀ x ∈ c, x.2 ≤ 26 := fun x hx => by
    have := e9.bounded x hx
    simp only [Metar.handlers, List.length_cons, List.length_nil] at this
    omega
  refine ⟨ps, h1, ?_, ?_⟩
  · intro p hp
    have hm : (taken c 19 20).getLast? ≠ none := by
      intro h0
      rw [List.getLast?_eq_none_iff] at h0
      unfold FromGroups at h1
      rw [h0] at h1
      cases h1
      cases hp
    have hl := hr_last e4.pressure hm h1 hp
    exact hl
  · show strip r.core.string = _
    rw [e6, Metar.body_text e9 e3, Metar.body_lines e3 hbd e4 h1, unlines_append,
      Metar.start_string, List.nil_append]
    simp only [unlines, List.flatMap_map]

end Verif
