import Verif.Lemmas.Lines

/-
The text buffer of a TAF and of a METAR trend.
-/

namespace Verif
open Spec

variable {σ α β : Type}

def Taf.text (db : Database) (now : Now) (a : Args) (t : Time) (j : Nat) (m : Match) : PyStr :=
  match j with
  | 0 => okStr (.ok (ReportType.new m.string)) ReportType.str
  | 1 => okStr (.ok (Modifier.new (some m.string))) Modifier.str
  | 2 => okStr (Station.new db (some m.string) py!"ICAO") (·.str db)
  | 3 => okStr (Time.fromMetar now (some m) a.year a.month) Time.str
  | 4 => okStr (.ok (Missing.new (some m.string))) (·.mod.str)
  | 5 => okStr (Valid.fromTaf (some m) t.time) Valid.str
  | 6 => okStr (.ok (Cancelled.new (some m))) Cancelled.str
  | 7 => okStr (MetarWind.new m) MetarWind.str
  | 8 => okStr (Verif.prevailing m) Visibility.str
  | 9 | 10 | 11 => okStr (.ok (Weather.new m)) Weather.str
  | 12 | 13 | 14 | 15 => okStr (Cloud.fromMetar m) Cloud.str
  | 16 | 17 | 18 | 19 => okStr (tafTagged t.time m) (·.2.str)
  | _ => []

macro "run_taf_line" hs:ident : tactic => `(tactic|
  (run_open $hs
   first
    | (subst $hs; rfl)
    | (obtain ⟨_, e, e0⟩ := $hs; subst e0; simp only [Taf.text, okStr_ok e]; rfl)
    | (obtain ⟨_, e, e0⟩ := $hs; subst e0; simp only [Taf.text, Taf.concat, okStr_ok e]; rfl)
    | (obtain ⟨_, ⟨_, e, e1⟩, e0⟩ := $hs; subst e0; subst e1; simp only [Taf.text, okStr_ok e]; rfl)
    | (obtain ⟨_, e, e0⟩ := $hs; subst e0; rfl)
    | (obtain ⟨_, e1, _, e, e0⟩ := $hs; subst e0; simp only [Taf.text, okStr_ok e1]; rfl)
    | (obtain ⟨_, ⟨_, e, e2⟩, e0⟩ := $hs; subst e0; subst e2; rfl)
    | (obtain ⟨_, ⟨_, e1, _, e, e2⟩, e0⟩ := $hs; subst e0; subst e2
       simp only [Taf.text, okStr_ok e1]; rfl)))

theorem Taf.writes_temperature {m : Match} {r r' : Taf} (hr : Taf.handleTemperature m r = .ok r') :
    r'.core.string = r.core.string ++ (okStr (tafTagged r'.time.time m) (·.2.str) ++ py!"\n") := by
  unfold Taf.handleTemperature at hr
  simp only [bind_ok] at hr
  obtain ⟨t, e, hr⟩ := hr
  have ht : tafTagged r.time.time m = .ok (decide (m.group .type = some py!"X"), t) := by
    simp [tafTagged, e, Except.map]
  split at hr <;> simp only [bind_ok, pure_ok] at hr <;> obtain ⟨_, _, rfl⟩ := hr <;>
    simp only [Taf.concat, okStr_ok ht] <;> rfl

theorem Taf.writes {db : Database} {now : Now} {a : Args} {j : Nat} {h : Handler Taf}
    {m : Match} {r r' : Taf} (hh : (Taf.handlers db now a)[j]? = some h)
    (hr : h.run m r = .ok r') :
    r'.core.string = r.core.string ++ (Taf.text db now a r'.time j m ++ py!"\n") := by
  rw [← List.mk_mem_zipIdx_iff_getElem?] at hh
  simp only [Taf.handlers, List.zipIdx_cons, List.zipIdx_nil, List.mem_cons, Prod.mk.injEq,
    List.not_mem_nil, or_false, Nat.zero_add, Nat.reduceAdd] at hh
  rcases hh with ⟨rfl, rfl⟩ | ⟨rfl, rfl⟩ | ⟨rfl, rfl⟩ | ⟨rfl, rfl⟩ | ⟨rfl, rfl⟩ | ⟨rfl, rfl⟩ |
    ⟨rfl, rfl⟩ | ⟨rfl, rfl⟩ | ⟨rfl, rfl⟩ | ⟨rfl, rfl⟩ | ⟨rfl, rfl⟩ | ⟨rfl, rfl⟩ | ⟨rfl, rfl⟩ |
    ⟨rfl, rfl⟩ | ⟨rfl, rfl⟩ | ⟨rfl, rfl⟩ | ⟨rfl, rfl⟩ | ⟨rfl, rfl⟩ | ⟨rfl, rfl⟩ | ⟨rfl, rfl⟩ <;>
    first
    | exact Taf.writes_temperature hr
    | run_taf_line hr

theorem Taf.body_text {db : Database} {now : Now} {a : Args} {c : List (PyStr × Nat)}
    {r0 r1 : Taf} (hr : Spec.Runs (Taf.handlers db now a) c r0 (.ok r1)) (ho : Ordered c) :
    r1.core.string = r0.core.string ++ unlines (c.map (lineOf (Taf.handlers db now a)
      (Taf.text db now a r1.time))) := by
  refine hr.lines (get := fun r => r.core.string) (k := fun r => r.time)
    (txt := fun t => Taf.text db now a t) ho (fun _ _ _ _ _ _ h1 h2 => Taf.writes h1 h2) ?_
  intro j i h m m' s s' hji hh hs
  by_cases hi : i = 3
  · have : j = 0 ∨ j = 1 ∨ j = 2 := by omega
    rcases this with rfl | rfl | rfl <;> rfl
  · simp only [(Taf.effect hh hs).time hi]

theorem Taf.body_lines {db : Database} {now : Now} {a : Args} {c : List (PyStr × Nat)}
    {r0 r : Taf} (ho : Ordered c) (hb : ∀ x ∈ c, x.2 ≤ 19) (hR : Taf.Reading db now a c r0 r)
    {ts : List (Bool × TafTemperature)}
    (hp : FromGroups c 16 19 TafRegExp.TEMPERATURE (fun m => tafTagged r.time.time m) ts) :
    c.map (lineOf (Taf.handlers db now a) (Taf.text db now a r.time)) =
      tafLines db c (ts.map (·.2)) r := by
  have hall : c = seg c 0 0 ++ seg c 1 1 ++ seg c 2 2 ++ seg c 3 3 ++ seg c 4 4 ++ seg c 5 5 ++
      seg c 6 6 ++ seg c 7 7 ++ seg c 8 8 ++ seg c 9 11 ++ seg c 12 15 ++ seg c 16 19 := by
    rw [← seg_split ho 0 (by omega) (by omega), ← seg_split ho 1 (by omega) (by omega),
      ← seg_split ho 2 (by omega) (by omega), ← seg_split ho 3 (by omega) (by omega),
      ← seg_split ho 4 (by omega) (by omega), ← seg_split ho 5 (by omega) (by omega),
      ← seg_split ho 6 (by omega) (by omega), ← seg_split ho 7 (by omega) (by omega),
      ← seg_split ho 8 (by omega) (by omega), ← seg_split ho 11 (by omega) (by omega),
      ← seg_split ho 15 (by omega) (by omega), seg_all hb]
  have h9 : ∀ i, 9 ≤ i → i ≤ 11 → i = 9 ∨ i = 10 ∨ i = 11 := by omega
  have h12 : ∀ i, 12 ≤ i → i ≤ 15 → i = 12 ∨ i = 13 ∨ i = 14 ∨ i = 15 := by omega
  have h16 : ∀ i, 16 ≤ i → i ≤ 19 → i = 16 ∨ i = 17 ∨ i = 18 ∨ i = 19 := by omega
  conv => lhs; rw [hall]
  simp only [List.map_append, tafLines, List.map_map]
  rw [line_single (str := ReportType.str) ho hR.type rfl fun _ => rfl,
    line_single (str := Modifier.str) ho hR.modifier rfl fun _ => rfl,
    line_single (str := fun x => x.str db) ho hR.station rfl fun _ => rfl,
    line_single (str := Time.str) ho hR.time rfl fun _ => rfl,
    line_single (str := fun x => x.mod.str) ho hR.missing rfl fun _ => rfl,
    line_single (str := Valid.str) ho hR.valid rfl fun _ => rfl,
    line_single (str := Cancelled.str) ho hR.cancelled rfl fun _ => rfl,
    line_single (str := MetarWind.str) ho hR.wind rfl fun _ => rfl,
    line_single (str := Visibility.str) ho hR.prevailing rfl fun _ => rfl,
    line_many (str := Weather.str) hR.weathers.1
      (fun i a b => by rcases h9 i a b with rfl | rfl | rfl <;> rfl)
      (fun i m a b => by rcases h9 i a b with rfl | rfl | rfl <;> rfl),
    line_many (str := Cloud.str) hR.clouds.1
      (fun i a b => by rcases h12 i a b with rfl | rfl | rfl | rfl <;> rfl)
      (fun i m a b => by rcases h12 i a b with rfl | rfl | rfl | rfl <;> rfl),
    line_many (str := fun x => x.2.str) hp
      (fun i a b => by rcases h16 i a b with rfl | rfl | rfl | rfl <;> rfl)
      (fun i m a b => by rcases h16 i a b with rfl | rfl | rfl | rfl <;> rfl)]
  rfl

theorem Taf.start_string (raw : PyStr) (time : Time) (v : Valid) :
    (Taf.start raw time v).core.string = [] := rfl

/-- The text of a TAF. -/
theorem Taf.new_lines {db : Database} {clock : Clock} {code : PyStr} {a : Args} {r : Taf}
    (h : Taf.new db clock code a = .ok r) {c : List (PyStr × Nat)}
    (hc : Spec.Decodes (Taf.handlers db (clock 1) a) (Spec.bodyGroups r.body) c) :
    ∃ ts : List (Bool × TafTemperature),
      FromGroups c 16 19 TafRegExp.TEMPERATURE (fun m => tafTagged r.time.time m) ts ∧
      r.maxTemperatures.list = (ts.filter (·.1)).map (·.2) ∧
      r.minTemperatures.list = (ts.filter (!·.1)).map (·.2) ∧
      ∃ cs0, Spec.Each (fun t c => ChangeForecasted.new t r.valid = .ok c)
          (r.changesCodes.filter (· ≠ [])) cs0 ∧ Spec.Chain Adds cs0 [] r.changes.list ∧
      r.str = strip (unlines (tafLines db c (ts.map (·.2)) r ++
        cs0.map fun c => c.indicator.str ++ py!"\n")) := by
  obtain ⟨time, v, asg, r1, -, -, e1, e2, e9, e3, e4, ⟨cs0, f1, f2, f3⟩, -, -, -, -, e5, e6⟩ :=
    Taf.new_reading h
  have hb : Taf.bodyText (normalizeCode code) = sanitizeVisibility r.body := by
    rw [e5]
    rfl
  have he : c = Spec.consumed (splitC 32 (Taf.bodyText (normalizeCode code))) asg := by
    rw [Spec.bodyGroups, ← hb] at hc
    exact ((decodes_iff _ _ _).1 hc).trans ((decodes_iff _ _ _).1 ⟨asg, e1, e2, rfl⟩).symm
  rw [← he] at e3 e4 e9
  obtain ⟨ts, h1, h2, h3⟩ := e4.temperatures
  have hbd : ∀ x ∈ c, x.2 ≤ 19 := fun x hx => by
    have := e9.bounded x hx
    simp only [Taf.handlers, List.length_cons, List.length_nil] at this
    omega
  have ht : r1.time = r.time := by
    have a1 := e4.time
    have a2 := (Taf.reading e9 e3 ⟨rfl, rfl⟩ ⟨rfl, rfl⟩ rfl rfl).time
    rcases a1 with ⟨g, m, b1, b2, b3⟩ | ⟨b1, b2⟩
    · rcases a2 with ⟨g', m', c1, c2, c3⟩ | ⟨c1, c2⟩
      · have := seg_one e3 b1
        rw [seg_one e3 c1] at this
        simp only [List.cons.injEq, Prod.mk.injEq, and_true] at this
        subst this
        rw [b2] at c2
        cases c2
        rw [b3] at c3
        exact (Except.ok.inj c3).symm
      · exact absurd b1 (c1 g)
    · rcases a2 with ⟨g', m', c1, c2, c3⟩ | ⟨c1, c2⟩
      · exact absurd c1 (b1 g')
      · rw [b2, c2]
  refine ⟨ts, h1, h2, h3, cs0, e6 ▸ f1, f2, ?_⟩
  show strip r.core.string = _
  rw [f3, Taf.body_text e9 e3, ht, Taf.body_lines e3 hbd e4 h1, unlines_append,
    Taf.start_string, List.nil_append]
  simp only [unlines, List.flatMap_map]
  rfl

theorem Spec.Each.map {α' : Type} {R : α → β → Prop} {S : α → α' → Prop} {f : β → α'}
    (h : ∀ a b, R a b → S a (f b)) {as : List α} {bs : List β} (he : Spec.Each R as bs) :
    Spec.Each S as (bs.map f) := by
  induction he with
  | nil => exact .nil
  | cons h1 _ ih => exact .cons (h _ _ h1) ih

theorem FromGroups_tagged {c : List (PyStr × Nat)} {time : DT} {ts : List (Bool × TafTemperature)}
    (h : FromGroups c 16 19 TafRegExp.TEMPERATURE (fun m => tafTagged time m) ts) :
    FromGroups c 16 19 TafRegExp.TEMPERATURE (fun m => TafTemperature.new m time) (ts.map (·.2)) := by
  unfold FromGroups at h ⊢
  refine h.map ?_
  rintro g ⟨b, t⟩ ⟨m, e1, e2⟩
  refine ⟨m, e1, ?_⟩
  have e2 : tafTagged time m = .ok (b, t) := e2
  unfold tafTagged at e2
  show TafTemperature.new m time = .ok t
  cases hx : TafTemperature.new m time with
  | error e => rw [hx] at e2; cases e2
  | ok x =>
    rw [hx] at e2
    simp only [Except.map, Except.ok.injEq, Prod.mk.injEq] at e2
    rw [e2.2]

/-! ### METAR trends -/

theorem Spec.Runs.cut {hs : List (Handler σ)} {c1 c2 : List (PyStr × Nat)} {s s' : σ}
    (hr : Spec.Runs hs (c1 ++ c2) s (.ok s')) :
    ∃ s1, Spec.Runs hs c1 s (.ok s1) ∧ Spec.Runs hs c2 s1 (.ok s') := by
  induction c1 generalizing s with
  | nil => exact ⟨s, .nil s, hr⟩
  | cons x c1 ih =>
    cases hr with
    | step h1 h2 h3 h4 =>
      obtain ⟨s1, e1, e2⟩ := ih h4
      exact ⟨s1, .step h1 h2 h3 e1, e2⟩

def ChangePeriod.text (j : Nat) (m : Match) : PyStr :=
  match j with
  | 3 => okStr (MetarWind.new m) MetarWind.str
  | 4 => okStr (Verif.prevailing m) Visibility.str
  | 5 | 6 | 7 => okStr (.ok (Weather.new m)) Weather.str
  | 8 | 9 | 10 | 11 => okStr (Cloud.fromMetar m) Cloud.str
  | _ => []

theorem ChangePeriod.writes {j : Nat} {h : Handler ChangePeriod} (hj : 3 ≤ j)
    {m : Match} {r r' : ChangePeriod} (hh : ChangePeriod.handlers[j]? = some h)
    (hr : h.run m r = .ok r') :
    r'.core.string = r.core.string ++ (ChangePeriod.text j m ++ py!"\n") := by
  rw [← List.mk_mem_zipIdx_iff_getElem?] at hh
  simp only [ChangePeriod.handlers, List.zipIdx_cons, List.zipIdx_nil, List.mem_cons, Prod.mk.injEq,
    List.not_mem_nil, or_false, Nat.zero_add, Nat.reduceAdd] at hh
  rcases hh with ⟨rfl, rfl⟩ | ⟨rfl, rfl⟩ | ⟨rfl, rfl⟩ | ⟨rfl, rfl⟩ | ⟨rfl, rfl⟩ | ⟨rfl, rfl⟩ |
    ⟨rfl, rfl⟩ | ⟨rfl, rfl⟩ | ⟨rfl, rfl⟩ | ⟨rfl, rfl⟩ | ⟨rfl, rfl⟩ | ⟨rfl, rfl⟩ <;>
    first
    | omega
    | (run_open hr
       first
       | (obtain ⟨_, ⟨_, e, e1⟩, e0⟩ := hr; subst e0; subst e1
          simp only [ChangePeriod.text, okStr_ok e]; rfl)
       | (obtain ⟨_, ⟨_, e, e2⟩, e0⟩ := hr; subst e0; subst e2; rfl)
       | (obtain ⟨_, ⟨_, e1, _, e, e2⟩, e0⟩ := hr; subst e0; subst e2
          simp only [ChangePeriod.text, okStr_ok e1]; rfl))

theorem replaceGo_none (old new : PyStr) (c : Nat) (h : 2 ≤ old.length) :
    replaceGo old new 0 [c] = [c] := by
  have : old.isPrefixOf [c] = false := by
    match old, h with
    | a :: b :: t, _ => simp [List.isPrefixOf]
  simp [replaceGo, this]

theorem replaceGo_pass (old new a t : PyStr) : replaceGo old new a.length (a ++ t) =
    replaceGo old new 0 t := by
  induction a with
  | nil => rfl
  | cons x a ih => simpa [replaceGo] using ih

/-- Replacing the only line of a text. -/
theorem replace_line {old : PyStr} (new : PyStr) (h : 2 ≤ old.length) :
    replace (old ++ py!"\n") old new = new ++ py!"\n" := by
  unfold replace
  rw [if_neg (by rintro rfl; simp at h)]
  match old, h with
  | x :: old, h =>
    have hp : (x :: old).isPrefixOf (x :: (old ++ py!"\n")) = true := by
      rw [List.isPrefixOf_iff_prefix]
      exact ⟨py!"\n", by simp⟩
    show replaceGo (x :: old) new 0 (x :: (old ++ py!"\n")) = _
    rw [replaceGo, if_pos hp]
    simp only [List.length_cons, Nat.add_sub_cancel]
    rw [replaceGo_pass, replaceGo_none _ _ _ h]

/-- The indicator has a text. -/
def TrendIndicator.Named (t : TrendIndicator) : Prop := ∃ v, t.translation = some v ∧ 2 ≤ v.length

theorem TrendIndicator.Named.str {t : TrendIndicator} (h : t.Named) : 2 ≤ t.str.length := by
  obtain ⟨v, h1, h2⟩ := h
  have hv : strTruthy t.translation = true := by
    rw [h1]
    cases v with
    | nil => simp at h2
    | cons => rfl
  have ht : translationText t.translation = v := by
    unfold translationText
    rw [hv, h1]
    rfl
  unfold TrendIndicator.str
  split
  · split
    · simp [ht]; omega
    · simp [ht]; omega
  · simp [ht, hv]; omega

theorem TrendIndicator.named_new {m : Match} {time : DT} {t : TrendIndicator}
    (h : TrendIndicator.new (some m) time = .ok t)
    (hm : m.string ∈ [py!"TEMPO", py!"BECMG", py!"NOSIG"]) : t.Named := by
  unfold TrendIndicator.new at h
  simp only [bind_ok, pure_ok, changeIndicatorO] at h
  obtain ⟨⟨code, tr⟩, h1, e, h2, rfl⟩ := h
  unfold changeIndicator at h1
  simp only [List.mem_cons, List.not_mem_nil, or_false] at hm
  rcases hm with hm | hm | hm <;> rw [hm] at h1 <;> cases h1 <;> exact ⟨_, rfl, by decide⟩

theorem TrendIndicator.addPeriod_ok {t t' : TrendIndicator} {m : Match} (h : t.addPeriod m = .ok t') :
    t'.translation = t.translation ∧ t.code ≠ none := by
  unfold TrendIndicator.addPeriod at h
  simp only [bind_ok] at h
  obtain ⟨code, h1, mid, -, hour, -, min, -, time, -, h⟩ := h
  constructor
  · split at h
    · cases h; rfl
    · split at h <;> cases h <;> rfl
  · intro hn
    unfold TrendIndicator.extendCode at h1
    rw [hn] at h1
    cases h1

/-- The buffer while the indicator and its periods are read. -/
theorem ChangePeriod.head_text {c : List (PyStr × Nat)} {p p' : ChangePeriod}
    (hr : Spec.Runs ChangePeriod.handlers c p (.ok p')) (ho : Ordered c) (hb : ∀ x ∈ c, x.2 ≤ 2)
    (hw : ∀ g, (g, 0) ∈ c → g ∈ [py!"TEMPO", py!"BECMG", py!"NOSIG"])
    (h0 : (p.indicator.code = none ∧ p.core.string = []) ∨
      (p.indicator.Named ∧ p.core.string = p.indicator.str ++ py!"\n" ∧ ∀ x ∈ c, x.2 ≠ 0)) :
    p'.core.string = unlines (if p.core.string = [] then line c 0 p'.indicator.str
      else [p'.indicator.str]) := by
  generalize hout : (Except.ok p' : Except Exc ChangePeriod) = out at hr
  induction hr with
  | nil s =>
    cases hout
    rcases h0 with ⟨_, h⟩ | ⟨h1, h2, -⟩
    · simp [h, line, has, unlines]
    · have : p'.core.string ≠ [] := by rw [h2]; simp
      simp only [if_neg this, unlines, List.flatMap_cons, List.flatMap_nil, List.append_nil]
      exact h2
  | fail _ _ _ => cases hout
  | @step g i rest s h m s1 out h1 h2 h3 hrest ih =>
    obtain ⟨ho1, ho2⟩ := List.pairwise_cons.1 ho
    have hi := hb (g, i) (by simp)
    have hi : i = 0 ∨ i = 1 ∨ i = 2 := by simp only at hi; omega
    have hb2 : ∀ x ∈ rest, x.2 ≤ 2 := fun x hx => hb x (by simp [hx])
    have hw2 : ∀ g, (g, 0) ∈ rest → g ∈ [py!"TEMPO", py!"BECMG", py!"NOSIG"] :=
      fun g hg => hw g (by simp [hg])
    have hpos : ∀ x ∈ rest, x.2 ≠ 0 := fun x hx => by have := ho1 x hx; simp only at this; omega
    by_cases hz : i = 0
    · subst hz
      have hrun : ChangePeriod.handleTrendIndicator m s = .ok s1 := by cases h1; exact h3
      have hre : MetarRegExp.CHANGE_INDICATOR.match g = some m := by cases h1; exact h2
      rcases h0 with ⟨hc, hs⟩ | ⟨-, -, hne⟩
      · unfold ChangePeriod.handleTrendIndicator at hrun
        simp only [bind_ok, pure_ok] at hrun
        obtain ⟨t, e1, rfl⟩ := hrun
        have hn : t.Named := TrendIndicator.named_new e1 (by
          rw [RE.match_string hre]
          exact hw g (by simp))
        have := ih ho2 hb2 hw2 (.inr ⟨hn, by simp [Core.concat, hs], hpos⟩) hout
        rw [this]
        have hx : (s.core.concat t.str).string ≠ [] := by simp [Core.concat]
        rw [if_neg hx, if_pos hs]
        simp [line, has]
      · exact absurd rfl (hne (g, 0) (by simp))
    · have hrun : ChangePeriod.handleTimePeriod m s = .ok s1 := by
        rcases hi with rfl | rfl | rfl
        · exact absurd rfl hz
        · cases h1; exact h3
        · cases h1; exact h3
      unfold ChangePeriod.handleTimePeriod at hrun
      simp only [bind_ok, pure_ok] at hrun
      obtain ⟨t, e1, rfl⟩ := hrun
      obtain ⟨a1, a2⟩ := TrendIndicator.addPeriod_ok e1
      rcases h0 with ⟨hc, hs⟩ | ⟨hn, hs, hne⟩
      · exact absurd hc a2
      · have hn' : t.Named := by
          obtain ⟨v, b1, b2⟩ := hn
          exact ⟨v, a1.trans b1, b2⟩
        have hstr : replace s.core.string s.indicator.str t.str = t.str ++ py!"\n" := by
          rw [hs]
          exact replace_line _ hn.str
        have := ih ho2 hb2 hw2 (.inr ⟨hn', hstr, hpos⟩) hout
        rw [this]
        simp only [hstr]
        rw [if_neg (by simp), if_neg (by rw [hs]; simp)]

/-- The text of a trend. -/
theorem ChangePeriod.lines {c : List (PyStr × Nat)} {p0 p : ChangePeriod}
    (hr : Spec.Runs ChangePeriod.handlers c p0 (.ok p)) (ho : Ordered c)
    (hR : ChangePeriod.Reading c p0 p) (hs : p0.core.string = []) (hc : p0.indicator.code = none)
    (hw : ∀ g, (g, 0) ∈ c → g ∈ [py!"TEMPO", py!"BECMG", py!"NOSIG"]) :
    p.core.string = unlines (trendLines c p) := by
  have hb : ∀ x ∈ c, x.2 ≤ 11 := fun x hx => by
    have := hr.bounded x hx
    simp only [ChangePeriod.handlers, List.length_cons, List.length_nil] at this
    omega
  have hall : c = seg c 0 2 ++ seg c 3 11 := by
    rw [← seg_split ho 2 (by omega) (by omega), seg_all hb]
  have hseg : seg c 3 11 = seg c 3 3 ++ seg c 4 4 ++ seg c 5 7 ++ seg c 8 11 := by
    rw [← seg_split ho 3 (by omega) (by omega), ← seg_split ho 4 (by omega) (by omega),
      ← seg_split ho 7 (by omega) (by omega)]
  have hmem : ∀ lo hi, ∀ x ∈ seg c lo hi, x ∈ c ∧ lo ≤ x.2 ∧ x.2 ≤ hi := fun lo hi x hx => by
    simpa [seg] using hx
  have hord : ∀ lo hi, Ordered (seg c lo hi) := fun lo hi => List.Pairwise.filter _ ho
  rw [hall] at hr
  obtain ⟨p1, h1, h2⟩ := hr.cut
  have hhead := ChangePeriod.head_text h1 (hord 0 2) (fun x hx => (hmem _ _ x hx).2.2)
    (fun g hg => hw g (hmem _ _ _ hg).1) (.inl ⟨hc, hs⟩)
  rw [if_pos hs] at hhead
  have hind : p.indicator = p1.indicator :=
    h2.keep (get := fun p => p.indicator) fun x hx h hh m s s' hs =>
      (ChangePeriod.effect hh hs).indicator (by have := (hmem _ _ x hx).2.1; omega)
  have htail := h2.lines (get := fun p => p.core.string) (k := fun _ => ())
    (txt := fun _ => ChangePeriod.text) (hord 3 11)
    (fun x hx _ _ _ _ a b => ChangePeriod.writes (hmem _ _ x hx).2.1 a b)
    fun _ _ _ _ _ _ _ _ _ _ => rfl
  have h5 : ∀ i, 5 ≤ i → i ≤ 7 → i = 5 ∨ i = 6 ∨ i = 7 := by omega
  have h8 : ∀ i, 8 ≤ i → i ≤ 11 → i = 8 ∨ i = 9 ∨ i = 10 ∨ i = 11 := by omega
  rw [htail, hhead, ← hind, hseg, ← unlines_append]
  congr 1
  have hline : line (seg c 0 2) 0 p.indicator.str = line c 0 p.indicator.str := by
    unfold line
    have : has (seg c 0 2) 0 = has c 0 := by
      rw [Bool.eq_iff_iff, has_iff, has_iff]
      constructor
      · rintro ⟨g, hg⟩; exact ⟨g, (hmem _ _ _ hg).1⟩
      · rintro ⟨g, hg⟩; exact ⟨g, by simp [seg, hg]⟩
    rw [this]
  simp only [List.map_append, trendLines]
  rw [line_single (str := MetarWind.str) ho hR.wind rfl fun _ => rfl,
    line_single (str := Visibility.str) ho hR.prevailing rfl fun _ => rfl,
    line_many (str := Weather.str) hR.weathers.1
      (fun i a b => by rcases h5 i a b with rfl | rfl | rfl <;> rfl)
      (fun i m a b => by rcases h5 i a b with rfl | rfl | rfl <;> rfl),
    line_many (str := Cloud.str) hR.clouds.1
      (fun i a b => by rcases h8 i a b with rfl | rfl | rfl | rfl <;> rfl)
      (fun i m a b => by rcases h8 i a b with rfl | rfl | rfl | rfl <;> rfl), hline]
  simp only [List.append_assoc]

end Verif
