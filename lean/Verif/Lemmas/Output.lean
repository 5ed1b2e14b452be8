import Verif.Spec.Output
import Verif.Lemmas.TrendPeriods
import Verif.Lemmas.Decoded
import Verif.Lemmas.Indicator

/-
The printing model follows the silent one.
-/

namespace Verif
open Spec

theorem Out.andThen_result {α β : Type} (x : Out α) (f : α → Out β) :
    (x.andThen f).result = x.result >>= fun a => (f a).result := by
  unfold Out.andThen
  cases x.result <;> rfl

theorem Out.andThen_lines {α β : Type} {x : Out α} {a : α} (f : α → Out β) (h : x.result = .ok a) :
    (x.andThen f).lines = x.lines ++ (f a).lines := by
  unfold Out.andThen
  rw [h]

/-- The handler without its output. -/
def PrintingHandler.quiet {σ : Type} (h : PrintingHandler σ) : Handler σ := ⟨h.regexp, fun m s => (h.run m s).result⟩

theorem tryPrinting_eq {σ : Type} (hs : List (PrintingHandler σ)) (g : PyStr) (n : Nat) :
    tryHandlers (hs.map PrintingHandler.quiet) g n = (tryPrinting hs g n).map fun x => (x.1, x.2.1, x.2.2.quiet) := by
  induction hs generalizing n with
  | nil => rfl
  | cons h hs ih =>
    simp only [List.map_cons, tryHandlers, tryPrinting]
    rw [show h.quiet.regexp = h.regexp from rfl]
    cases h.regexp.match g with
    | none => exact ih _
    | some m => rfl

theorem parsePrinting_result {σ : Type} (hs : List (PrintingHandler σ)) (gs : List PyStr) (i : Nat)
    (un : List PyStr) (s : σ) :
    (parsePrinting hs gs i un s).result = parseGo (hs.map PrintingHandler.quiet) gs i un s := by
  induction gs generalizing i un s with
  | nil => rfl
  | cons g gs ih =>
    unfold parsePrinting parseGo
    simp only
    rw [← List.map_drop, tryPrinting_eq]
    cases tryPrinting (hs.drop i) g 0 with
    | none => exact ih _ _ _
    | some x =>
      obtain ⟨n, m, h⟩ := x
      simp only [Option.map_some]
      rw [Out.andThen_result]
      rw [show h.quiet.run m s = (h.run m s).result from rfl]
      cases (h.run m s).result with
      | error e => rfl
      | ok s' => exact ih _ _ _

theorem printing_quiet : ChangePeriod.printingHandlers.map PrintingHandler.quiet = ChangePeriod.handlers := by
  have h : (fun m p => (ChangePeriod.printTimePeriod m p).result) = ChangePeriod.handleTimePeriod := by
    funext m p
    unfold ChangePeriod.printTimePeriod ChangePeriod.handleTimePeriod
    rw [Out.andThen_result]
    rfl
  unfold ChangePeriod.printingHandlers ChangePeriod.handlers
  simp only [List.map_cons, List.map_nil, PrintingHandler.quiet, h]
  rfl

theorem ChangePeriod.printing_result (code : PyStr) (t : DT) :
    (ChangePeriod.printing code t).result = ChangePeriod.new code t := by
  unfold ChangePeriod.printing ChangePeriod.new
  simp only
  rw [Out.andThen_result]
  show TrendIndicator.new none t >>= _ = _
  congr 1
  funext ind
  rw [Out.andThen_result, parsePrinting_result, printing_quiet]
  rfl

theorem Metar.trendsPrinting_result (ts : List PyStr) (r : Metar) :
    (Metar.trendsPrinting ts r).result = Metar.trendsGo ts r := by
  induction ts generalizing r with
  | nil => rfl
  | cons t ts ih =>
    unfold Metar.trendsPrinting Metar.trendsGo
    split
    · rw [Out.andThen_result, ChangePeriod.printing_result]
      unfold Metar.handleWeatherTrend
      cases ChangePeriod.new t r.time.time with
      | error e => rfl
      | ok p =>
        simp only [Out.andThen_result, Out.silent]
        cases h : r.weatherTrends.add p with
        | error e => simp only [h, bind, Except.bind]
        | ok l => simp only [h, bind, Except.bind, pure, Except.pure]; exact ih _
    · exact ih r

theorem Metar.parseTrendPrinting_result (a : Args) (r : Metar) :
    (Metar.parseTrendPrinting a r).result = Metar.parseWeatherTrend a r := by
  unfold Metar.parseTrendPrinting Metar.parseWeatherTrend
  rw [Out.andThen_result, Metar.trendsPrinting_result]
  congr 1
  funext r
  simp only
  split <;> rfl

/-- The lines of the methods of the consumed groups, one after the other. -/
inductive RunsPrinting {σ : Type} (hs : List (PrintingHandler σ)) : List (PyStr × Nat) → σ → List PyStr → Prop
  | nil (s : σ) : RunsPrinting hs [] s []
  | step {g i rest s h m s' ls} : hs[i]? = some h → h.regexp.match g = some m →
      (h.run m s).result = .ok s' → RunsPrinting hs rest s' ls →
      RunsPrinting hs ((g, i) :: rest) s ((h.run m s).lines ++ ls)

theorem tryPrinting_some {σ : Type} {hs : List (PrintingHandler σ)} {g : PyStr} {c n : Nat} {m : Match}
    {h : PrintingHandler σ} (e : tryPrinting hs g c = some (n, m, h)) :
    c < n ∧ hs[n - c - 1]? = some h ∧ h.regexp.match g = some m := by
  induction hs generalizing c with
  | nil => cases e
  | cons k hs ih =>
    unfold tryPrinting at e
    cases hk : k.regexp.match g with
    | none =>
      rw [hk] at e
      obtain ⟨h1, h2, h3⟩ := ih e
      refine ⟨by omega, ?_, h3⟩
      rw [show n - c - 1 = (n - (c + 1) - 1) + 1 by omega, List.getElem?_cons_succ]
      exact h2
    | some m' =>
      rw [hk] at e
      cases e
      exact ⟨by omega, by rw [show c + 1 - c - 1 = 0 by omega]; rfl, hk⟩

theorem parsePrinting_runs {σ : Type} {hs : List (PrintingHandler σ)} {gs : List PyStr} {i : Nat}
    {un : List PyStr} {s : σ} {x : σ × List PyStr} (e : (parsePrinting hs gs i un s).result = .ok x) :
    RunsPrinting hs (consumed gs (assign (hs.map PrintingHandler.quiet) i gs)) s (parsePrinting hs gs i un s).lines := by
  induction gs generalizing i un s with
  | nil => exact .nil s
  | cons g gs ih =>
    unfold parsePrinting at e ⊢
    unfold assign
    simp only at e ⊢
    rw [← List.map_drop, tryPrinting_eq]
    cases ht : tryPrinting (hs.drop i) g 0 with
    | none =>
      rw [ht] at e
      simp only [Option.map_none, consumed, List.zip_cons_cons, List.filterMap_cons]
      exact ih e
    | some y =>
      obtain ⟨n, m, h⟩ := y
      rw [ht] at e
      obtain ⟨h1, h2, h3⟩ := tryPrinting_some ht
      simp only [Option.map_some, consumed, List.zip_cons_cons, List.filterMap_cons] at e ⊢
      rw [Out.andThen_result] at e
      cases hr : (h.run m s).result with
      | error _ => rw [hr] at e; cases e
      | ok s' =>
        rw [hr] at e
        rw [Out.andThen_lines _ hr]
        refine .step ?_ h3 hr (ih e)
        rw [List.getElem?_drop] at h2
        rw [show i + n - 1 = i + (n - 0 - 1) by omega]
        exact h2

/-- The lines printed along a chain of period groups. -/
inductive LineChain : List PyStr → TrendIndicator → List PyStr → Prop
  | nil (t : TrendIndicator) : LineChain [] t []
  | cons {g gs t t' m ls} : MetarRegExp.TREND_TIME_PERIOD.match g = some m → t.addPeriod m = .ok t' →
      LineChain gs t' ls → LineChain (g :: gs) t (t'.printAt :: ls)

theorem LineChain.length {gs : List PyStr} {t : TrendIndicator} {ls : List PyStr} (h : LineChain gs t ls) :
    ls.length = gs.length := by
  induction h with
  | nil => rfl
  | cons _ _ _ ih => simp [ih]

theorem LineChain.at {gs : List PyStr} {t : TrendIndicator} {ls : List PyStr} (h : LineChain gs t ls) {k : Nat}
    {line : PyStr} (hk : ls[k]? = some line) :
    ∃ t', Chain (fun g t t' => ∃ m, MetarRegExp.TREND_TIME_PERIOD.match g = some m ∧
      TrendIndicator.addPeriod t m = .ok t') (gs.take (k + 1)) t t' ∧ line = t'.printAt := by
  induction h generalizing k with
  | nil => simp at hk
  | @cons g gs t t' m ls h1 h2 _ ih =>
    cases k with
    | zero =>
      simp only [List.getElem?_cons_zero, Option.some.injEq] at hk
      refine ⟨t', ?_, hk.symm⟩
      simp only [Nat.zero_add, List.take_succ_cons, List.take_zero]
      exact .cons ⟨m, h1, h2⟩ (.nil _)
    | succ k =>
      rw [List.getElem?_cons_succ] at hk
      obtain ⟨t'', h3, h4⟩ := ih hk
      exact ⟨t'', by rw [List.take_succ_cons]; exact .cons ⟨m, h1, h2⟩ h3, h4⟩

theorem printAt_text (t : TrendIndicator) :
    (t.at_ = none → t.printAt = py!"None") ∧ ∀ x, t.at_ = some x → t.printAt = instantText x.time := by
  constructor
  · intro h
    unfold TrendIndicator.printAt
    rw [h]
  · intro x h
    unfold TrendIndicator.printAt
    rw [h]
    rfl

/-- Methods at other positions than 1 and 2 print nothing. -/
theorem printing_silent {i : Nat} {h : PrintingHandler ChangePeriod} (hi : i ≠ 1 ∧ i ≠ 2)
    (e : ChangePeriod.printingHandlers[i]? = some h) (m : Match) (p : ChangePeriod) : (h.run m p).lines = [] := by
  match i, hi with
  | 0, _ => cases e; rfl
  | 3, _ => cases e; rfl
  | 4, _ => cases e; rfl
  | 5, _ => cases e; rfl
  | 6, _ => cases e; rfl
  | 7, _ => cases e; rfl
  | 8, _ => cases e; rfl
  | 9, _ => cases e; rfl
  | 10, _ => cases e; rfl
  | 11, _ => cases e; rfl
  | n + 12, _ => cases e

theorem printing_handler {i : Nat} {h : PrintingHandler ChangePeriod}
    (e : ChangePeriod.printingHandlers[i]? = some h) : ChangePeriod.handlers[i]? = some h.quiet := by
  rw [← printing_quiet, List.getElem?_map, e]
  rfl

theorem runsPrinting_lines {c : List (PyStr × Nat)} {p : ChangePeriod} {ls : List PyStr}
    (h : RunsPrinting ChangePeriod.printingHandlers c p ls) (hc : ∀ x ∈ c, 1 ≤ x.2) (ho : Ordered c) :
    LineChain (taken c 1 2) p.indicator ls := by
  induction h with
  | nil => exact .nil _
  | @step g i rest p h m p' ls h1 h2 h3 hr ih =>
    obtain ⟨ho1, ho2⟩ := List.pairwise_cons.1 ho
    have ih := ih (fun x hx => hc x (by simp [hx])) ho2
    by_cases hi : i = 1 ∨ i = 2
    · have ht : taken ((g, i) :: rest) 1 2 = g :: taken rest 1 2 := by
        unfold taken
        rw [List.filter_cons, if_pos (by simp; omega)]
        rfl
      have hre : h = ⟨MetarRegExp.TREND_TIME_PERIOD, ChangePeriod.printTimePeriod⟩ := by
        rcases hi with rfl | rfl <;> cases h1 <;> rfl
      subst hre
      rw [ht]
      simp only [ChangePeriod.printTimePeriod] at h3 ⊢
      rw [Out.andThen_result] at h3
      cases ha : p.indicator.addPeriod m with
      | error e => simp only [Out.silent, ha] at h3; cases h3
      | ok t =>
        simp only [Out.silent, ha, bind, Except.bind, Except.ok.injEq] at h3
        rw [Out.andThen_lines (x := Out.silent (Except.ok t)) (a := t) _ rfl]
        subst h3
        exact .cons h2 ha ih
    · have hi' : i ≠ 1 ∧ i ≠ 2 := by omega
      rw [printing_silent hi' h1]
      have h0 := hc (g, i) (by simp)
      simp only at h0
      have ht : taken ((g, i) :: rest) 1 2 = [] := by
        unfold taken
        have : ((g, i) :: rest).filter (fun x => decide (1 ≤ x.2 ∧ x.2 ≤ 2)) = [] := by
          rw [List.filter_eq_nil_iff]
          intro x hx
          rcases List.mem_cons.1 hx with rfl | hx
          · simp; omega
          · have := ho1 x hx
            simp only at this
            simp
            omega
        rw [this]
        rfl
      have ht' : taken rest 1 2 = [] := by
        unfold taken
        have : rest.filter (fun x => decide (1 ≤ x.2 ∧ x.2 ≤ 2)) = [] := by
          rw [List.filter_eq_nil_iff]
          intro x hx
          have := ho1 x hx
          simp only at this
          simp
          omega
        rw [this]
        rfl
      rw [ht'] at ih
      rw [ht]
      cases ih
      exact .nil _

/-- What is printed for the groups of a trend. -/
theorem runsPrinting_period {c : List (PyStr × Nat)} {p : ChangePeriod} {ls : List PyStr} {t : DT}
    (h : RunsPrinting ChangePeriod.printingHandlers c p ls) (ho : Ordered c) (hn : ∀ g i, (g, i) ∈ c → 10 ∉ g)
    (hv : t.valid = true) (ht : p.time = t) (hp : TrendIndicator.new none t = .ok p.indicator) :
    PeriodLines t (taken c 1 2) ls := by
  have key : ∃ t0, LineChain (taken c 1 2) t0 ls ∧ t0.init.time = t ∧ After t 120 t0.end_.time ∧
      t0.at_ = none := by
    cases h with
    | nil =>
      obtain ⟨w1, w2, -, -, w5⟩ := TrendIndicator.new_window hv hp
      exact ⟨p.indicator, .nil _, w1, w2, w5⟩
    | @step g i rest _ h m p' ls h1 h2 h3 hr =>
      obtain ⟨ho1, ho2⟩ := List.pairwise_cons.1 ho
      by_cases hi : i = 0
      · subst hi
        have hrest := runsPrinting_lines hr (fun x hx => ho1 x hx) ho2
        rw [printing_silent (by omega) h1]
        have : taken ((g, 0) :: rest) 1 2 = taken rest 1 2 := by
          unfold taken
          rw [List.filter_cons, if_neg (by simp)]
        rw [this]
        have e : TrendIndicator.new (some m) t = .ok p'.indicator := by
          cases h1
          simp only [ChangePeriod.quietly, Out.silent, ChangePeriod.handleTrendIndicator, bind_ok, pure_ok] at h3
          obtain ⟨x, h4, rfl⟩ := h3
          rw [ht] at h4
          exact h4
        obtain ⟨w1, w2, -, -, w5⟩ := TrendIndicator.new_window hv e
        exact ⟨p'.indicator, hrest, w1, w2, w5⟩
      · obtain ⟨w1, w2, -, -, w5⟩ := TrendIndicator.new_window hv hp
        refine ⟨p.indicator, runsPrinting_lines (.step h1 h2 h3 hr) ?_ ho, w1, w2, w5⟩
        intro x hx
        rcases List.mem_cons.1 hx with rfl | hx
        · simp only; omega
        · have := ho1 x hx
          omega
  obtain ⟨t0, hl, w1, w2, w5⟩ := key
  refine ⟨hl.length, fun k line hk => ?_⟩
  obtain ⟨t', hch, rfl⟩ := hl.at hk
  have hg : ∀ g ∈ (taken c 1 2).take (k + 1), 10 ∉ g := fun g hg => by
    obtain ⟨i, -, -, hi⟩ := taken_mem (List.mem_of_mem_take hg)
    exact hn g i hi
  obtain ⟨-, -, -, e4⟩ := period_chain hch hg w1 hv w2
  obtain ⟨a1, -, a3⟩ := e4 .at_
  refine ⟨fun hno => ?_, fun w hw => ?_⟩
  · have := a1 hno
    simp only [TrendIndicator.timeOf, w5, Option.map_none, Option.map_eq_none_iff] at this
    exact (printAt_text t').1 this
  · obtain ⟨u, hu, hw⟩ := a3 w hw
    simp only [TrendIndicator.timeOf, Option.map_eq_some_iff] at hu
    obtain ⟨x, hx, rfl⟩ := hu
    exact ⟨x.time, hw, (printAt_text t').2 x hx⟩

theorem ChangePeriod.printing_lines {code : PyStr} {t : DT} {p : ChangePeriod} (h : ChangePeriod.new code t = .ok p)
    (hv : t.valid = true) (hn : 10 ∉ code) {text : PyStr} (ht : p.code = some text) {c : List (PyStr × Nat)}
    (hc : Decodes ChangePeriod.handlers (bodyGroups text) c) :
    PeriodLines t (taken c 1 2) (ChangePeriod.printing code t).lines := by
  obtain ⟨ind, asg, p1, e0, e1, e2, e3, e4, e5, e6, e7, e8⟩ := ChangePeriod.new_reading h
  have ht' : text = replace code py!"_" py!" " := by
    have := ht.symm.trans e7
    simpa using this
  have hc := (decodes_iff _ _ _).1 hc
  rw [← ht'] at e1 e2 e4
  have he := ((decodes_iff _ _ _).1 ⟨asg, e1, e2, rfl⟩)
  rw [he] at e4
  have hr := ChangePeriod.printing_result code t
  rw [h] at hr
  unfold ChangePeriod.printing at hr ⊢
  simp only at hr ⊢
  rw [Out.andThen_result] at hr
  rw [Out.andThen_lines (x := Out.silent (TrendIndicator.new none t)) _ e0]
  simp only [Out.silent, e0, List.nil_append] at hr ⊢
  simp only [ok_bind] at hr
  rw [Out.andThen_result] at hr
  simp only [← ht'] at hr ⊢
  generalize hx : parsePrinting ChangePeriod.printingHandlers _ _ _ _ = x at hr ⊢
  cases hxr : x.result with
  | error e => rw [hxr] at hr; cases hr
  | ok y =>
    rw [Out.andThen_lines _ hxr]
    simp only [List.append_nil]
    have := parsePrinting_runs (x := y) (hx ▸ hxr)
    rw [hx, printing_quiet] at this
    rw [hc]
    refine runsPrinting_period this e4 (fun g i hg => ?_) hv rfl e0
    refine not_mem_splitC ?_ g (consumed_mem hg)
    refine not_mem_sanitizeVisibility (by decide) (by decide) ?_
    rw [ht']
    exact not_mem_replace (by decide) hn (by decide)

theorem Metar.trendsPrinting_lines {ts : List PyStr} {r r' : Metar} (h : Metar.trendsGo ts r = .ok r') :
    (Metar.trendsPrinting ts r).lines =
      ((ts.filter (· ≠ [])).map fun t => (ChangePeriod.printing t r.time.time).lines).flatten := by
  induction ts generalizing r with
  | nil => rfl
  | cons t ts ih =>
    unfold Metar.trendsGo at h
    unfold Metar.trendsPrinting
    by_cases ht : t = []
    · rw [if_neg (by simpa using ht)] at h
      rw [if_neg (by simpa using ht), ih h]
      simp [ht]
    · rw [if_pos ht] at h
      rw [if_pos ht]
      simp only [bind_ok, Metar.handleWeatherTrend, pure_ok] at h
      obtain ⟨r1, ⟨p, h1, l, h2, rfl⟩, h3⟩ := h
      rw [Out.andThen_lines _ ((ChangePeriod.printing_result t r.time.time).trans h1),
        Out.andThen_lines (x := Out.silent (r.weatherTrends.add p)) _ h2, ih h3]
      simp only [List.filter_cons, ht, ne_eq, not_false_eq_true, decide_true, if_true, List.map_cons,
        List.flatten_cons]
      rfl

theorem Spec.Each.mapped {α β γ : Type} {R : α → β → Prop} {S : β → γ → Prop} {f : α → γ} {as : List α}
    {bs : List β} (h : Spec.Each R as bs) (hs : ∀ a ∈ as, ∀ b, R a b → S b (f a)) :
    Spec.Each S bs (as.map f) := by
  induction h with
  | nil => exact .nil
  | cons h1 _ ih =>
    exact .cons (hs _ (by simp) _ h1) (ih fun a ha b hb => hs a (by simp [ha]) b hb)

theorem Metar.printing_result (db : Database) (clock : Clock) (code : PyStr) (a : Args) :
    (Metar.printing db clock code a).result = Metar.new db clock code a := by
  unfold Metar.printing
  rw [Out.andThen_result]
  rw [show (fun r => (Metar.parseTrendPrinting a r).result) = Metar.parseWeatherTrend a from
    funext (Metar.parseTrendPrinting_result a)]
  unfold Metar.new Metar.untilTrends
  by_cases hc : code = []
  · simp only [Out.silent, hc, if_true]
    rfl
  · simp only [Out.silent, hc, if_false, bind_assoc]

theorem Metar.parseTrendPrinting_lines (a : Args) (r : Metar) :
    (Metar.parseTrendPrinting a r).lines =
      (Metar.trendsPrinting (splitSentence r.trend [py!"TEMPO", py!"BECMG"] 1 .both) r).lines := by
  unfold Metar.parseTrendPrinting Out.andThen
  cases (Metar.trendsPrinting (splitSentence r.trend [py!"TEMPO", py!"BECMG"] 1 .both) r).result with
  | error e => rfl
  | ok r =>
    simp only
    split <;> exact List.append_nil _

theorem Metar.untilTrends_eq (db : Database) (clock : Clock) (code : PyStr) (a : Args) (hc : code ≠ []) :
    Metar.untilTrends db clock code a = (do
      let _ ← Time.new (clock 0) none none none none none none
      let time ← Time.fromMetar (clock 1) none a.year a.month
      let (r, un) ← parseSection (Metar.handlers db (clock 2) a) (Metar.bodyText (normalizeCode code))
        (Metar.start (normalizeCode code) time)
      return { r with unparsed := r.unparsed ++ un }) := by
  unfold Metar.untilTrends
  rw [if_neg hc]
  simp only [Metar.parseBody, Station.new, ok_bind]
  rfl

theorem Metar.printing_lines {db : Database} {clock : Clock} {code : PyStr} {a : Args} {r : Metar}
    (h : Metar.new db clock code a = .ok r) : (Metar.printing db clock code a).lines =
      (((Metar.trendParts (normalizeCode code)).filter (· ≠ [])).map
        fun t => (ChangePeriod.printing t r.time.time).lines).flatten := by
  obtain ⟨t0, time, r1, un, r2, hc, h0, h1, h2, hf, h3, rfl, -⟩ := Metar.new_ok h
  have e := Metar.trendsPrinting_lines h3
  have e1 : r1.unparsed = [] := hf.unparsed
  have e2 : r1.trend = (metarSections (normalizeCode code)).2.1 := by
    unfold Metar.trend
    rw [hf.sections]; rfl
  obtain ⟨ps, -, e3⟩ := Metar.trendsGo_ok h3
  have e4 : r2.finish.time = r1.time := by rw [e3]; rfl
  rw [e4]
  have hb : Metar.untilTrends db clock code a = .ok { r1 with unparsed := un } := by
    rw [Metar.untilTrends_eq db clock code a hc]
    simp only [h0, ok_bind, h1, h2, e1, List.nil_append]
    rfl
  unfold Metar.printing
  rw [Out.andThen_lines (x := Out.silent (Metar.untilTrends db clock code a)) _ hb,
    Metar.parseTrendPrinting_lines]
  simp only [Out.silent, List.nil_append]
  have e5 : Metar.trend { r1 with unparsed := un } = (metarSections (normalizeCode code)).2.1 := e2
  rw [e5]
  exact e

theorem Metar.untilTrends_truncate (db : Database) (clock : Clock) (code : PyStr) (a : Args) (b : Bool) :
    Metar.untilTrends db clock code { a with truncate := b } = Metar.untilTrends db clock code a := rfl

theorem Metar.printing_truncate (db : Database) (clock : Clock) (code : PyStr) (a : Args) (b : Bool) :
    (Metar.printing db clock code { a with truncate := b }).lines = (Metar.printing db clock code a).lines := by
  unfold Metar.printing
  rw [Metar.untilTrends_truncate]
  unfold Out.andThen
  cases (Out.silent (Metar.untilTrends db clock code a)).result with
  | error e => rfl
  | ok r => simp only [Metar.parseTrendPrinting_lines]

/-! ### Any text -/

/-- A property of all printed lines, by an invariant of the state. -/
theorem parsePrinting_invariant {σ : Type} {hs : List (PrintingHandler σ)} {I : σ → Prop} {Q : PyStr → Prop}
    (hh : ∀ (i : Nat) (h : PrintingHandler σ) (g : PyStr) (m : Match) (s : σ), hs[i]? = some h → 10 ∉ g → h.regexp.match g = some m → I s →
      (∀ l ∈ (h.run m s).lines, Q l) ∧ ∀ s', (h.run m s).result = .ok s' → I s')
    {gs : List PyStr} (hn : ∀ g ∈ gs, 10 ∉ g) (i : Nat) (un : List PyStr) {s : σ} (hI : I s) :
    ∀ l ∈ (parsePrinting hs gs i un s).lines, Q l := by
  induction gs generalizing i un s with
  | nil => exact fun l hl => absurd hl (by simp [parsePrinting, Out.silent])
  | cons g gs ih =>
    unfold parsePrinting
    simp only
    cases ht : tryPrinting (hs.drop i) g 0 with
    | none => exact ih (fun g hg => hn g (by simp [hg])) _ _ hI
    | some y =>
      obtain ⟨n, m, h⟩ := y
      obtain ⟨-, h2, h3⟩ := tryPrinting_some ht
      rw [List.getElem?_drop] at h2
      obtain ⟨k1, k2⟩ := hh _ h g m s h2 (hn g (by simp)) h3 hI
      simp only
      cases hr : (h.run m s).result with
      | error e =>
        unfold Out.andThen
        rw [hr]
        exact k1
      | ok s' =>
        rw [Out.andThen_lines _ hr]
        intro l hl
        rcases List.mem_append.1 hl with hl | hl
        · exact k1 l hl
        · exact ih (fun g hg => hn g (by simp [hg])) _ _ (k2 s' hr) l hl

/-- What holds while a trend is read. -/
structure TrendKept (t : DT) (p : ChangePeriod) : Prop where
  time : p.time = t
  init : p.indicator.init.time = t
  window : After t 120 p.indicator.end_.time
  at_ : ∀ u, p.indicator.timeOf .at_ = some u → u.valid = true

theorem TrendKept.step {t : DT} (hv : t.valid = true) {i : Nat} {h : PrintingHandler ChangePeriod} {g : PyStr}
    {m : Match} {p : ChangePeriod} (hi : ChangePeriod.printingHandlers[i]? = some h) (hn : 10 ∉ g)
    (hm : h.regexp.match g = some m) (hp : TrendKept t p) :
    (∀ l ∈ (h.run m p).lines, IsLine l) ∧ ∀ p', (h.run m p).result = .ok p' → TrendKept t p' := by
  by_cases h12 : i = 1 ∨ i = 2
  · have hre : h = ⟨MetarRegExp.TREND_TIME_PERIOD, ChangePeriod.printTimePeriod⟩ := by
      rcases h12 with rfl | rfl <;> cases hi <;> rfl
    subst hre
    obtain ⟨w, hw, rfl⟩ := period_only hm hn
    simp only [ChangePeriod.printTimePeriod]
    cases ha : p.indicator.addPeriod m with
    | error e => exact ⟨fun l hl => absurd hl (by simp [Out.silent, Out.andThen]), fun p' h => by cases h⟩
    | ok x =>
      obtain ⟨s1, s2, s3, -, u, s5, s6⟩ := addPeriod_step hw hm hp.init hv hp.window ha
      have hat : ∀ u, x.timeOf .at_ = some u → u.valid = true := by
        intro v hx
        by_cases hk : w.kind = .at_
        · rw [← hk, s5] at hx
          cases hx
          obtain ⟨k, -, hu⟩ := s6
          exact (isTime_iff _).1 hu.1
        · rw [s3 .at_ fun e => hk e.symm] at hx
          exact hp.at_ v hx
      refine ⟨fun l hl => ?_, fun p' h => ?_⟩
      · simp only [Out.andThen, Out.silent, List.nil_append, List.mem_singleton] at hl
        subst hl
        cases hx : x.at_ with
        | none => exact .inl ((printAt_text x).1 hx)
        | some y =>
          refine .inr ⟨y.time, (isTime_iff _).2 (hat y.time ?_), (printAt_text x).2 y hx⟩
          simp [TrendIndicator.timeOf, hx]
      · cases h
        exact ⟨hp.time, by rw [s1]; exact hp.init, by rw [s2]; exact hp.window, hat⟩
  · refine ⟨fun l hl => ?_, fun p' h => ?_⟩
    · rw [printing_silent (by omega) hi] at hl
      exact absurd hl (by simp)
    · have hf := ChangePeriod.effect (printing_handler hi) h
      by_cases h0 : i = 0
      · subst h0
        cases hi
        simp only [ChangePeriod.quietly, Out.silent, ChangePeriod.handleTrendIndicator, bind_ok, pure_ok] at h
        obtain ⟨x, h4, rfl⟩ := h
        rw [hp.time] at h4
        obtain ⟨w1, w2, -, -, w5⟩ := TrendIndicator.new_window hv h4
        exact ⟨hp.time, w1, w2, fun u hu => by simp [TrendIndicator.timeOf, w5] at hu⟩
      · have e := hf.indicator (by omega)
        exact ⟨hf.time.trans hp.time, by rw [e]; exact hp.init, by rw [e]; exact hp.window,
          by rw [e]; exact hp.at_⟩

theorem ChangePeriod.printing_any {code : PyStr} {t : DT} (hv : t.valid = true) (hn : 10 ∉ code) :
    ∀ l ∈ (ChangePeriod.printing code t).lines, IsLine l := by
  unfold ChangePeriod.printing
  simp only
  cases e0 : TrendIndicator.new none t with
  | error e => exact fun l hl => absurd hl (by simp [Out.silent, Out.andThen])
  | ok ind =>
    rw [Out.andThen_lines (x := Out.silent (.ok ind)) (a := ind) _ rfl]
    simp only [Out.silent, List.nil_append]
    obtain ⟨w1, w2, -, -, w5⟩ := TrendIndicator.new_window hv e0
    have key := parsePrinting_invariant (I := TrendKept t) (Q := IsLine)
      (fun i h g m s hi hn hm hp => TrendKept.step hv hi hn hm hp)
      (gs := splitC 32 (sanitizeVisibility (replace code py!"_" py!" "))) (fun g hg => by
        refine not_mem_splitC ?_ g hg
        refine not_mem_sanitizeVisibility (by decide) (by decide) ?_
        exact not_mem_replace (by decide) hn (by decide)) 0 []
      (s := { code := some (replace code py!"_" py!" "), time := t, indicator := ind })
      ⟨rfl, w1, w2, fun u hu => by simp [TrendIndicator.timeOf, w5] at hu⟩
    unfold Out.andThen
    split
    · exact key
    · simp only [List.append_nil]
      exact key

theorem Metar.trendsPrinting_any {ts : List PyStr} (hn : ∀ t ∈ ts, 10 ∉ t) {r : Metar}
    (hv : r.time.time.valid = true) : ∀ l ∈ (Metar.trendsPrinting ts r).lines, IsLine l := by
  induction ts generalizing r with
  | nil => exact fun l hl => absurd hl (by simp [Metar.trendsPrinting, Out.silent])
  | cons t ts ih =>
    unfold Metar.trendsPrinting
    split
    · have k := ChangePeriod.printing_any hv (hn t (by simp))
      cases h1 : (ChangePeriod.printing t r.time.time).result with
      | error e =>
        unfold Out.andThen
        rw [h1]
        exact k
      | ok p =>
        rw [Out.andThen_lines _ h1]
        intro l hl
        rcases List.mem_append.1 hl with hl | hl
        · exact k l hl
        · cases h2 : r.weatherTrends.add p with
          | error e => rw [h2] at hl; exact absurd hl (by simp [Out.silent, Out.andThen])
          | ok x =>
            rw [h2, Out.andThen_lines (x := Out.silent (.ok x)) (a := x) _ rfl] at hl
            simp only [Out.silent, List.nil_append] at hl
            exact ih (fun t ht => hn t (by simp [ht])) (r := Metar.concat { r with weatherTrends := x } p.str) hv l hl
    · exact ih (fun t ht => hn t (by simp [ht])) hv

theorem Metar.printing_any (db : Database) (clock : Clock) (code : PyStr) (a : Args) :
    ∀ l ∈ (Metar.printing db clock code a).lines, IsLine l := by
  unfold Metar.printing
  cases h : Metar.untilTrends db clock code a with
  | error e => exact fun l hl => absurd hl (by simp [Out.silent, Out.andThen])
  | ok r =>
    rw [Out.andThen_lines (x := Out.silent (.ok r)) (a := r) _ rfl, Metar.parseTrendPrinting_lines]
    simp only [Out.silent, List.nil_append]
    by_cases hc : code = []
    · subst hc
      simp [Metar.untilTrends, throw_eq, error_bind] at h
    rw [Metar.untilTrends_eq db clock code a hc] at h
    simp only [bind_ok, pure_ok] at h
    obtain ⟨t0, -, time, h1, ⟨r1, un⟩, h2, rfl⟩ := h
    have hf := Metar.parse_frame h2
    obtain ⟨asg, -, -, e3, e4, -⟩ := parseSection_reading h2
    have hR := Metar.reading e3 e4 ⟨rfl, rfl⟩ ⟨rfl, rfl⟩ ⟨rfl, rfl⟩ ⟨rfl, rfl⟩
    have e2 : r1.trend = (metarSections (normalizeCode code)).2.1 := by
      unfold Metar.trend
      rw [hf.sections]; rfl
    have e5 : Metar.trend { r1 with unparsed := r1.unparsed ++ un } =
      (metarSections (normalizeCode code)).2.1 := e2
    rw [e5]
    refine Metar.trendsPrinting_any (Metar.trendParts_no_newline (normalizeCode_no_newline code)) ?_
    show r1.time.time.valid = true
    rcases hR.time with ⟨g, m, -, -, hx⟩ | ⟨-, hx⟩
    · exact Time.fromMetar_valid hx
    · rw [hx]; exact Time.fromMetar_valid h1

end Verif
