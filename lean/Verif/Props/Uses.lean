import Verif.Props.Dict
import Verif.Spec.Uses

/-
C74: what the use of a report changes.
-/

namespace Verif.Props
open Verif.Spec

theorem rewound_next {α : Type} (g : GroupList α) : rewound g.next.2 = rewound g := by
  unfold GroupList.next
  split <;> rfl

theorem rewound_cavokGo (isSame : Bool) (f : Nat) (g : GroupList Cloud) :
    rewound (Core.cavokGo isSame f g).2 = rewound g := by
  induction f generalizing g with
  | zero => rfl
  | succ f ih =>
    unfold Core.cavokGo
    have hn := rewound_next g
    split
    · rename_i g' e; rw [e] at hn; exact hn
    · rename_i c g' e
      rw [e] at hn
      replace hn : rewound g' = rewound g := hn
      split
      · exact hn
      split
      · exact hn
      split
      · split
        · exact hn
        · rw [ih, hn]
      · rw [ih, hn]

theorem rewound_cavok (isSame : Bool) (c : Core) :
    rewound (c.shouldBeCavok isSame).2 = rewound c.clouds := by
  unfold Core.shouldBeCavok
  split
  · rfl
  split
  · rfl
  · rfl
  split
  · rfl
  split
  · rfl
  split
  · rfl
  · exact rewound_cavokGo ..

theorem rewound_core_use (c : Core) (u : CoreUse) : rewoundCore (c.use u) = rewoundCore c := by
  cases u with
  | nextWeather => simp only [Core.use, rewoundCore, rewound_next]
  | nextCloud => simp only [Core.use, rewoundCore, rewound_next]
  | cavok b => simp only [Core.use, rewoundCore, rewound_cavok]

theorem forecastDict_state (code : Option PyStr) (c : Core) :
    (forecastDict code c).2 = rewoundCore c := by
  unfold forecastDict
  rw [C40_iteration_from_cursor, C40_iteration_from_cursor]
  rfl

theorem rewoundCore_twice (c : Core) : rewoundCore (rewoundCore c) = rewoundCore c := rfl

theorem trend_dict_state (p : ChangePeriod) : p.dict.2 = rewoundTrend p := by
  simp only [ChangePeriod.dict, rewoundTrend, ← forecastDict_state p.code p.core]

theorem change_dict_state (x : ChangeForecasted) : x.dict.2 = rewoundChange x := by
  simp only [ChangeForecasted.dict, rewoundChange, ← forecastDict_state (some x.code) x.core]

theorem rewound_trend_use (p : ChangePeriod) (u : ForecastUse) :
    rewoundTrend (p.use u) = rewoundTrend p := by
  cases u with
  | core u => simp only [ChangePeriod.use, rewoundTrend, rewound_core_use]
  | dict => rw [ChangePeriod.use, trend_dict_state]; rfl
  | str => rfl

theorem map_modify {α β : Type} (f : α → β) (g : α → α) (h : ∀ x, f (g x) = f x) (l : List α)
    (i : Nat) : (l.modify i g).map f = l.map f := by
  induction l generalizing i with
  | nil => simp
  | cons x l ih =>
    cases i with
    | zero => simp [List.modify, h]
    | succ i => simp [ih]

theorem rewound_metar_use (r : Metar) (u : MetarUse) : rewoundMetar (r.use u) = rewoundMetar r := by
  cases u with
  | core u => simp only [Metar.use, rewoundMetar, rewound_core_use]
  | nextRange => simp only [Metar.use, rewoundMetar, rewound_next]
  | nextWindshear => simp only [Metar.use, rewoundMetar, rewound_next]
  | nextTrend =>
    have h := rewound_next r.weatherTrends
    have hl : r.weatherTrends.next.2.list = r.weatherTrends.list := (congrArg GroupList.list h :)
    simp only [Metar.use, rewoundMetar, h, hl]
  | trend i u =>
    simp only [Metar.use, rewoundMetar, GroupList.onItem, rewound,
      map_modify rewoundTrend _ (fun p => rewound_trend_use p u)]
  | dict =>
    simp only [Metar.use, rewoundMetar, GroupList.onAll, rewound, List.map_map]
    congr 2
    apply List.map_congr_left
    intro p _
    simp only [Function.comp, trend_dict_state]
    rfl

theorem rewound_metar_after (r : Metar) (us : List MetarUse) :
    rewoundMetar (r.after us) = rewoundMetar r := by
  induction us generalizing r with
  | nil => rfl
  | cons u us ih =>
    rw [show r.after (u :: us) = (r.use u).after us from rfl, ih, rewound_metar_use]

theorem rewound_eq {α : Type} {g : GroupList α} (h : g.n = 0) : rewound g = g := by
  unfold rewound; rw [← h]

theorem rewoundCore_eq {c : Core} (h : c.weathers.n = 0 ∧ c.clouds.n = 0) : rewoundCore c = c := by
  unfold rewoundCore; rw [rewound_eq h.1, rewound_eq h.2]

/-- A constructed METAR has all its iterators at the start. -/
theorem metar_rewound {db : Database} {clock : Clock} {code : PyStr} {a : Args} {r : Metar}
    (h : Metar.new db clock code a = .ok r) : rewoundMetar r = r := by
  obtain ⟨t0, time, asg, r1, -, -, -, -, -, -, hR, hE, hn, -⟩ := Metar.new_reading h
  have hm : r.weatherTrends.list.map rewoundTrend = r.weatherTrends.list := by
    refine (List.map_congr_left fun p hp => ?_).trans (List.map_id _)
    obtain ⟨t, -, ht⟩ := hE.right p hp
    obtain ⟨ind, asg, p1, -, -, -, -, -, hR, -⟩ := ChangePeriod.new_reading ht
    unfold rewoundTrend
    rw [rewoundCore_eq ⟨hR.weathers.2, hR.clouds.2⟩]
    rfl
  unfold rewoundMetar
  rw [rewoundCore_eq ⟨hR.weathers.2, hR.clouds.2⟩, rewound_eq hR.ranges.2,
    rewound_eq hR.windshears.2, rewound_eq hn, hm]

/-- The trends of a METAR whose iterators were left alone have them at the start. -/
theorem trends_alone (us : List MetarUse) (hu : TrendsLeftAlone us) (r : Metar)
    (h : ∀ p ∈ r.weatherTrends.list, rewoundTrend p = p) :
    (r.after us).weatherTrends.list = r.weatherTrends.list := by
  induction us generalizing r with
  | nil => rfl
  | cons u us ih =>
    have hl : (r.use u).weatherTrends.list = r.weatherTrends.list := by
      cases u with
      | core u => rfl
      | nextRange => rfl
      | nextWindshear => rfl
      | nextTrend => exact (congrArg GroupList.list (rewound_next r.weatherTrends) :)
      | trend i u =>
        have : ∀ p ∈ r.weatherTrends.list, p.use u = p := by
          intro p hp
          cases u with
          | core u => exact absurd (List.mem_cons_self ..) (hu i u)
          | dict => rw [ChangePeriod.use, trend_dict_state, h p hp]
          | str => rfl
        simp only [Metar.use, GroupList.onItem]
        generalize r.weatherTrends.list = l at this
        clear hu ih h
        induction l generalizing i with
        | nil => simp
        | cons x l ih =>
          cases i with
          | zero => simp [List.modify, this x (by simp)]
          | succ i => simp [ih i fun p hp => this p (by simp [hp])]
      | dict =>
        simp only [Metar.use, GroupList.onAll]
        refine (List.map_congr_left fun p hp => ?_).trans (List.map_id _)
        rw [trend_dict_state, h p hp]
        rfl
    rw [show r.after (u :: us) = (r.use u).after us from rfl,
      ih (fun i w hm => hu i w (by simp [hm])) _ (by rw [hl]; exact h), hl]

theorem asDict_of {α : Type} (f : α → PyVal) {g g' : GroupList α} (e : g'.list.map f = g.list.map f) :
    g'.asDict (fun x => .ok (f x)) = g.asDict (fun x => .ok (f x)) := by
  have go : ∀ (ls : List PyStr) (xs ys : List α) (d : List (PyStr × PyVal)), xs.map f = ys.map f →
      GroupList.asDictGo (fun x => .ok (f x)) ls xs d =
        GroupList.asDictGo (fun x => .ok (f x)) ls ys d := by
    intro ls xs
    induction xs generalizing ls with
    | nil =>
      intro ys d e
      cases ys with
      | nil => rfl
      | cons y ys => simp at e
    | cons x xs ih =>
      intro ys d e
      cases ys with
      | nil => simp at e
      | cons y ys =>
        simp only [List.map_cons, List.cons.injEq] at e
        cases ls with
        | nil => rfl
        | cons l ls => simp only [GroupList.asDictGo, e.1]; exact ih ls ys _ e.2
  unfold GroupList.asDict
  rw [go _ _ _ _ e]

/-- The dictionary of a METAR depends on its iterators only through the dictionaries of the
trends. -/
theorem metar_dict_eq {db : Database} {r r' : Metar} (h : rewoundMetar r' = rewoundMetar r)
    (ht : r'.weatherTrends.list.map (·.dict.1) = r.weatherTrends.list.map (·.dict.1)) :
    r'.dict db = r.dict db := by
  have hlist : ∀ {α : Type} {g g' : GroupList α}, rewound g' = rewound g → g'.list = g.list :=
    fun e => (congrArg GroupList.list e :)
  have h1 :=
    (congrArg (fun r : Metar => r.runwayRanges) h :)
  have h2 :=
    (congrArg (fun r : Metar => r.core.weathers) h :)
  have h3 :=
    (congrArg (fun r : Metar => r.core.clouds) h :)
  have h4 :=
    (congrArg (fun r : Metar => r.windshears) h :)
  have h3' : r'.core.clouds.list = r.core.clouds.list := hlist h3
  have hfr : r'.core.flightRules = r.core.flightRules := by
    have : r'.core.prevailing = r.core.prevailing :=
    (congrArg (fun r : Metar => r.core.prevailing) h :)
    unfold Core.flightRules
    rw [this, h3']
  unfold Metar.dict
  rw [asDict_of RunwayRange.dict (congrArg _ (hlist h1)), asDict_of Weather.dict (congrArg _ (hlist h2)),
    asDict_of Cloud.dict (congrArg _ (hlist h3)), asDict_of Windshear.dict (congrArg _ (hlist h4)),
    asDict_of (fun p : ChangePeriod => p.dict.1) ht, hfr]
  have a1 : r'.rawCode = r.rawCode :=
    (congrArg (fun r : Metar => r.rawCode) h :)
  have a2 : r'.sections = r.sections :=
    (congrArg (fun r : Metar => r.sections) h :)
  have a3 : r'.unparsed = r.unparsed :=
    (congrArg (fun r : Metar => r.unparsed) h :)
  have a4 : r'.type = r.type :=
    (congrArg (fun r : Metar => r.type) h :)
  have a5 : r'.station = r.station :=
    (congrArg (fun r : Metar => r.station) h :)
  have a6 : r'.time = r.time :=
    (congrArg (fun r : Metar => r.time) h :)
  have a7 : r'.modifier = r.modifier :=
    (congrArg (fun r : Metar => r.modifier) h :)
  have a8 : r'.core.wind = r.core.wind :=
    (congrArg (fun r : Metar => r.core.wind) h :)
  have a9 : r'.windVariation = r.windVariation :=
    (congrArg (fun r : Metar => r.windVariation) h :)
  have b1 : r'.core.prevailing = r.core.prevailing :=
    (congrArg (fun r : Metar => r.core.prevailing) h :)
  have b2 : r'.minimumVisibility = r.minimumVisibility :=
    (congrArg (fun r : Metar => r.minimumVisibility) h :)
  have b3 : r'.temperatures = r.temperatures :=
    (congrArg (fun r : Metar => r.temperatures) h :)
  have b4 : r'.pressure = r.pressure :=
    (congrArg (fun r : Metar => r.pressure) h :)
  have b5 : r'.recentWeather = r.recentWeather :=
    (congrArg (fun r : Metar => r.recentWeather) h :)
  have b6 : r'.seaState = r.seaState :=
    (congrArg (fun r : Metar => r.seaState) h :)
  have b7 : r'.runwayState = r.runwayState :=
    (congrArg (fun r : Metar => r.runwayState) h :)
  have b8 : r'.remark = r.remark := by unfold Metar.remark; rw [a2]
  rw [a1, a2, a3, a4, a5, a6, a7, a8, a9, b1, b2, b3, b4, b5, b6, b7, b8]

/-- **C74**, METAR. However a constructed METAR is used, all its data stay as they were constructed
(only the positions of iterators change), and so do its text, its flight rules and its ceiling.
`as_dict()` never raises; it shows of each trend only the weathers and clouds its iterators have not
passed yet. It rewinds them, so that the next `as_dict()` is complete; and if the lists of the trends
are never iterated by hand and no trend is asked `should_be_cavok()`, `as_dict()` always gives the
same. -/
theorem C74_metar (db : Database) (clock : Clock) (code : PyStr) (a : Args) (r : Metar)
    (h : Metar.new db clock code a = .ok r) (us : List MetarUse) :
    rewoundMetar (r.after us) = r ∧ (r.after us).str = r.str ∧
    (r.after us).core.flightRules = r.core.flightRules ∧
    ceiling (r.after us).core.clouds.list = ceiling r.core.clouds.list ∧
    (∃ d, (r.after us).dict db = .ok d ∧
      ∀ n, leaves (n + 5) d = metarTableWith forecastTableNow db (r.after us)) ∧
    (r.after (us ++ [.dict])).dict db = r.dict db ∧
    (TrendsLeftAlone us → (r.after us).dict db = r.dict db) := by
  have hr := metar_rewound h
  have e := rewound_metar_after r us
  have hc : (r.after us).core.clouds.list = r.core.clouds.list :=
    (congrArg (fun r : Metar => r.core.clouds.list) e :)
  obtain ⟨l1, l2, l3, l4, l5⟩ := C41_metar_lists db clock code a r h
  have m1 : (r.after us).runwayRanges.list = r.runwayRanges.list :=
    (congrArg (fun r : Metar => r.runwayRanges.list) e :)
  have m2 : (r.after us).core.weathers.list = r.core.weathers.list :=
    (congrArg (fun r : Metar => r.core.weathers.list) e :)
  have m4 : (r.after us).windshears.list = r.windshears.list :=
    (congrArg (fun r : Metar => r.windshears.list) e :)
  have m5 : (r.after us).weatherTrends.list.map rewoundTrend = r.weatherTrends.list.map rewoundTrend :=
    (congrArg (fun r : Metar => r.weatherTrends.list) e :)
  have m5' : (r.after us).weatherTrends.list.length = r.weatherTrends.list.length := by
    simpa using congrArg List.length m5
  have hp : ∀ p ∈ r.weatherTrends.list, rewoundTrend p = p := by
    have : r.weatherTrends.list.map rewoundTrend = r.weatherTrends.list :=
    (congrArg (fun r : Metar => r.weatherTrends.list) hr :)
    intro p hp
    exact List.map_inj_left.1 (this.trans (List.map_id _).symm) p hp
  refine ⟨e.trans hr, (congrArg (fun r : Metar => strip r.core.string) e :), ?_, by rw [hc],
    metar_dict_now db _ (by rw [m1]; omega) (by rw [m2]; omega) (by rw [hc]; omega) (by rw [m4]; omega)
      (by omega), ?_,
    fun hu => metar_dict_eq e (by rw [trends_alone us hu r hp])⟩
  · have : (r.after us).core.prevailing = r.core.prevailing :=
    (congrArg (fun r : Metar => r.core.prevailing) e :)
    unfold Core.flightRules
    rw [this, hc]
  · refine metar_dict_eq (rewound_metar_after r _) ?_
    have : (r.after (us ++ [.dict])).weatherTrends.list = r.weatherTrends.list := by
      rw [show r.after (us ++ [.dict]) = (r.after us).use .dict by
        unfold Metar.after; rw [List.foldl_append]; rfl]
      simp only [Metar.use, GroupList.onAll, trend_dict_state]
      rw [m5]
      exact (List.map_congr_left fun p h => hp p h).trans (List.map_id _)
    rw [this]

/-! ### TAF -/

theorem blank_rewound_core (c : Core) (s : PyStr) :
    rewoundCore { c with string := s } = { rewoundCore c with string := s } := rfl

/-- What is kept of a change. -/
abbrev keptChange (x : ChangeForecasted) : ChangeForecasted := blankChange (rewoundChange x)

theorem kept_change_use (x : ChangeForecasted) (u : ForecastUse) : keptChange (x.use u) = keptChange x := by
  cases u with
  | core u =>
    simp only [ChangeForecasted.use, keptChange, blankChange, rewoundChange, rewound_core_use]
  | dict => rw [ChangeForecasted.use, change_dict_state]; rfl
  | str => rfl

theorem kept_taf_use (r : Taf) (u : TafUse) :
    blankTaf (rewoundTaf (r.use u)) = blankTaf (rewoundTaf r) := by
  cases u with
  | core u => simp only [Taf.use, blankTaf, rewoundTaf, rewound_core_use]
  | nextMax => simp only [Taf.use, blankTaf, rewoundTaf, rewound_next]
  | nextMin => simp only [Taf.use, blankTaf, rewoundTaf, rewound_next]
  | nextChange =>
    have h := rewound_next r.changes
    have hl : r.changes.next.2.list = r.changes.list := (congrArg GroupList.list h :)
    simp only [Taf.use, blankTaf, rewoundTaf, h, hl]
  | change i u =>
    simp only [Taf.use, blankTaf, rewoundTaf, GroupList.onItem, rewound, List.map_map]
    rw [map_modify (blankChange ∘ rewoundChange) _ (fun x => kept_change_use x u)]
  | changesStr =>
    simp only [Taf.use, blankTaf, rewoundTaf, changesStr, rewound, List.map_map]
    rfl
  | dict =>
    simp only [Taf.use, blankTaf, rewoundTaf, GroupList.onAll, rewound, List.map_map]
    congr 2
    apply List.map_congr_left
    intro p _
    simp only [Function.comp, change_dict_state]
    rfl

theorem kept_taf_after (r : Taf) (us : List TafUse) :
    blankTaf (rewoundTaf (r.after us)) = blankTaf (rewoundTaf r) := by
  induction us generalizing r with
  | nil => rfl
  | cons u us ih =>
    rw [show r.after (u :: us) = (r.use u).after us from rfl, ih, kept_taf_use]

theorem addTemp_n {α : Type} {g g' : GroupList α} {x : α} (h : g.add x = .ok g') : g'.n = g.n := by
  unfold GroupList.add at h
  split at h
  · cases h
  · cases h; rfl

/-- The iterators of the lists of temperatures are at the start. -/
def TempStart (r : Taf) : Prop := r.maxTemperatures.n = 0 ∧ r.minTemperatures.n = 0

theorem tempStart_handler {db : Database} {now : Now} {a : Args} {h : Handler Taf}
    (hh : h ∈ Taf.handlers db now a) {m : Match} {r r' : Taf} (hr : h.run m r = .ok r')
    (hp : TempStart r) : TempStart r' := by
  obtain ⟨j, hj⟩ := List.mem_iff_getElem?.1 hh
  by_cases hb : j < 16 ∨ 19 < j
  · have he := Taf.effect hj hr
    unfold TempStart
    rw [he.maxTemperatures hb, he.minTemperatures hb]
    exact hp
  · have hrun : h.run = Taf.handleTemperature := by
      have : j = 16 ∨ j = 17 ∨ j = 18 ∨ j = 19 := by omega
      rcases this with rfl | rfl | rfl | rfl <;> cases hj <;> rfl
    rw [hrun] at hr
    unfold Taf.handleTemperature at hr
    simp only [bind_ok] at hr
    obtain ⟨t, -, hr⟩ := hr
    split at hr <;> simp only [bind_ok, pure_ok] at hr <;> obtain ⟨l, h1, rfl⟩ := hr
    · exact ⟨(addTemp_n h1).trans hp.1, hp.2⟩
    · exact ⟨hp.1, (addTemp_n h1).trans hp.2⟩

theorem tempStart_changes {ts : List PyStr} {r r' : Taf} (h : Taf.changesGo ts r = .ok r')
    (hp : TempStart r) : TempStart r' := by
  induction ts generalizing r with
  | nil => cases h; exact hp
  | cons t ts ih =>
    unfold Taf.changesGo at h
    split at h
    · simp only [bind_ok, Taf.handleChange, pure_ok] at h
      obtain ⟨r1, ⟨p, h1, l, h2, rfl⟩, h3⟩ := h
      exact ih h3 hp
    · exact ih h hp

theorem temp_start {db : Database} {clock : Clock} {code : PyStr} {a : Args} {r : Taf}
    (h : Taf.new db clock code a = .ok r) : TempStart r := by
  obtain ⟨time', v', r1', un, r2, -, -, -, h2, hf, h3, rfl, -⟩ := Taf.new_ok h
  have hfit : TempStart r1' := parseSection_invariant (P := TempStart)
    (fun h hh g m s s' _ hp hr => tempStart_handler hh hr hp) ⟨rfl, rfl⟩ h2
  have hfit2 : TempStart r2 := tempStart_changes h3 hfit
  exact hfit2

/-- A constructed TAF has all its iterators at the start. -/
theorem taf_rewound {db : Database} {clock : Clock} {code : PyStr} {a : Args} {r : Taf}
    (h : Taf.new db clock code a = .ok r) : rewoundTaf r = r := by
  obtain ⟨time, v, asg, r1, -, -, -, -, -, -, hR, -, hE, hn, -⟩ := Taf.new_reading h
  have hm : r.changes.list.map rewoundChange = r.changes.list := by
    refine (List.map_congr_left fun p hp => ?_).trans (List.map_id _)
    obtain ⟨t, -, p0, ht, i, s, rfl, -⟩ := hE.right p hp
    obtain ⟨asg, p1, -, -, -, -, hR, -⟩ := ChangeForecasted.new_reading ht
    have e := rewoundCore_eq (c := { p0.core with string := s }) ⟨hR.weathers.2, hR.clouds.2⟩
    unfold rewoundChange
    simp only [e]
    rfl
  have ht := temp_start h
  unfold rewoundTaf
  rw [rewoundCore_eq ⟨hR.weathers.2, hR.clouds.2⟩, rewound_eq ht.1, rewound_eq ht.2, rewound_eq hn, hm]

/-- The iterators of the changes stay at the start when they are left alone. -/
theorem changes_alone (us : List TafUse) (hu : ChangesLeftAlone us) (r : Taf)
    (h : ∀ x ∈ r.changes.list, rewoundChange x = x) :
    ∀ x ∈ (r.after us).changes.list, rewoundChange x = x := by
  induction us generalizing r with
  | nil => exact h
  | cons u us ih =>
    refine ih (fun i w hm => hu i w (by simp [hm])) (r.use u) ?_
    cases u with
    | core u => exact h
    | nextMax => exact h
    | nextMin => exact h
    | nextChange =>
      have e : (r.use .nextChange).changes.list = r.changes.list :=
        (congrArg GroupList.list (rewound_next r.changes) :)
      rw [e]; exact h
    | change i u =>
      have key : ∀ x ∈ r.changes.list, rewoundChange (x.use u) = x.use u := by
        intro x hx
        cases u with
        | core u => exact absurd (List.mem_cons_self ..) (hu i u)
        | dict => rw [ChangeForecasted.use, change_dict_state]; rfl
        | str =>
          have e : rewoundChange x.str.2 = (rewoundChange x).str.2 := rfl
          rw [ChangeForecasted.use, e, h x hx]
      simp only [Taf.use, GroupList.onItem]
      generalize r.changes.list = l at key h
      clear hu ih
      induction l generalizing i with
      | nil => simp
      | cons y l ih =>
        intro x hx
        cases i with
        | zero =>
          simp only [List.modify_zero_cons, List.mem_cons] at hx
          rcases hx with rfl | hx
          · exact key y (by simp)
          · exact h x (by simp [hx])
        | succ i =>
          simp only [List.modify_succ_cons, List.mem_cons] at hx
          rcases hx with rfl | hx
          · exact h x (by simp)
          · exact ih i (fun z hz => key z (by simp [hz])) (fun z hz => h z (by simp [hz])) x hx
    | changesStr =>
      simp only [Taf.use, changesStr, List.mem_map]
      rintro x ⟨y, hy, rfl⟩
      have e : rewoundChange y.str.2 = (rewoundChange y).str.2 := rfl
      rw [e, h y hy]
    | dict =>
      simp only [Taf.use, GroupList.onAll, List.mem_map]
      rintro x ⟨y, hy, rfl⟩
      rw [change_dict_state]
      rfl

/-- The dictionary of a change does not depend on its text buffer. -/
theorem change_dict_blank (x : ChangeForecasted) : (blankChange x).dict.1 = x.dict.1 := rfl

theorem taf_dict_eq {db : Database} {r r' : Taf} (h : blankTaf (rewoundTaf r') = blankTaf (rewoundTaf r))
    (ht : r'.changes.list.map (·.dict.1) = r.changes.list.map (·.dict.1)) :
    r'.dict db = r.dict db := by
  have h2 : r'.core.weathers.list = r.core.weathers.list :=
    (congrArg (fun r : Taf => r.core.weathers.list) h :)
  have h3 : r'.core.clouds.list = r.core.clouds.list := (congrArg (fun r : Taf => r.core.clouds.list) h :)
  have h1 : r'.maxTemperatures.list = r.maxTemperatures.list :=
    (congrArg (fun r : Taf => r.maxTemperatures.list) h :)
  have h4 : r'.minTemperatures.list = r.minTemperatures.list :=
    (congrArg (fun r : Taf => r.minTemperatures.list) h :)
  unfold Taf.dict
  rw [asDict_of Weather.dict (congrArg _ h2), asDict_of Cloud.dict (congrArg _ h3),
    asDict_of TafTemperature.dict (congrArg _ h1), asDict_of TafTemperature.dict (congrArg _ h4),
    asDict_of (fun p : ChangeForecasted => p.dict.1) ht]
  have a1 : r'.rawCode = r.rawCode := (congrArg (fun r : Taf => r.rawCode) h :)
  have a2 : r'.sections = r.sections := (congrArg (fun r : Taf => r.sections) h :)
  have a3 : r'.unparsed = r.unparsed := (congrArg (fun r : Taf => r.unparsed) h :)
  have a4 : r'.type = r.type := (congrArg (fun r : Taf => r.type) h :)
  have a5 : r'.station = r.station := (congrArg (fun r : Taf => r.station) h :)
  have a6 : r'.time = r.time := (congrArg (fun r : Taf => r.time) h :)
  have a7 : r'.modifier = r.modifier := (congrArg (fun r : Taf => r.modifier) h :)
  have a8 : r'.core.wind = r.core.wind := (congrArg (fun r : Taf => r.core.wind) h :)
  have b1 : r'.core.prevailing = r.core.prevailing := (congrArg (fun r : Taf => r.core.prevailing) h :)
  have b2 : r'.missing = r.missing := (congrArg (fun r : Taf => r.missing) h :)
  have b3 : r'.valid = r.valid := (congrArg (fun r : Taf => r.valid) h :)
  have b4 : r'.cancelled = r.cancelled := (congrArg (fun r : Taf => r.cancelled) h :)
  rw [a1, a2, a3, a4, a5, a6, a7, a8, b1, b2, b3, b4]

theorem taf_dict_rewound {db : Database} {r r' : Taf}
    (h : blankTaf (rewoundTaf r') = blankTaf (rewoundTaf r))
    (hx' : ∀ x ∈ r'.changes.list, rewoundChange x = x) (hx : ∀ x ∈ r.changes.list, rewoundChange x = x) :
    r'.dict db = r.dict db := by
  refine taf_dict_eq h ?_
  have hl : (r'.changes.list.map rewoundChange).map blankChange =
      (r.changes.list.map rewoundChange).map blankChange := (congrArg (fun r : Taf => r.changes.list) h :)
  have key : ∀ l : List ChangeForecasted, (∀ x ∈ l, rewoundChange x = x) →
      l.map (·.dict.1) = ((l.map rewoundChange).map blankChange).map (·.dict.1) := by
    intro l h
    rw [List.map_map, List.map_map]
    refine List.map_congr_left fun x hx => ?_
    simp only [Function.comp, change_dict_blank, h x hx]
  rw [key _ hx', key _ hx, hl]

/-- **C74**, TAF. However a constructed TAF is used, all its data stay as they were constructed (only
the positions of iterators and the text buffers of the changes change), and so do its text, the texts
of its changes, its flight rules and its ceiling. `as_dict()` never raises; it shows of each change
only the weathers and clouds its iterators have not passed yet. It rewinds them, so that the next
`as_dict()` is complete; and if the lists of the changes are never iterated by hand and no change is
asked `should_be_cavok()`, `as_dict()` always gives the same. -/
theorem C74_taf (db : Database) (clock : Clock) (code : PyStr) (a : Args) (r : Taf)
    (h : Taf.new db clock code a = .ok r) (us : List TafUse) :
    blankTaf (rewoundTaf (r.after us)) = blankTaf r ∧ (r.after us).str = r.str ∧
    (r.after us).changes.list.map (·.str.1) = r.changes.list.map (·.str.1) ∧
    (r.after us).core.flightRules = r.core.flightRules ∧
    ceiling (r.after us).core.clouds.list = ceiling r.core.clouds.list ∧
    (∃ d, (r.after us).dict db = .ok d ∧
      ∀ n, leaves (n + 5) d = tafTableWith forecastTableNow db (r.after us)) ∧
    (r.after (us ++ [.dict])).dict db = r.dict db ∧
    (ChangesLeftAlone us → (r.after us).dict db = r.dict db) := by
  have hr := taf_rewound h
  have e := kept_taf_after r us
  have hc : (r.after us).core.clouds.list = r.core.clouds.list :=
    (congrArg (fun r : Taf => r.core.clouds.list) e :)
  obtain ⟨l1, l2, l3, l4, l5⟩ := C41_taf_lists db clock code a r h
  have m1 : (r.after us).maxTemperatures.list = r.maxTemperatures.list :=
    (congrArg (fun r : Taf => r.maxTemperatures.list) e :)
  have m2 : (r.after us).core.weathers.list = r.core.weathers.list :=
    (congrArg (fun r : Taf => r.core.weathers.list) e :)
  have m4 : (r.after us).minTemperatures.list = r.minTemperatures.list :=
    (congrArg (fun r : Taf => r.minTemperatures.list) e :)
  have m5 : ((r.after us).changes.list.map rewoundChange).map blankChange =
      (r.changes.list.map rewoundChange).map blankChange := (congrArg (fun r : Taf => r.changes.list) e :)
  have m5' : (r.after us).changes.list.length = r.changes.list.length := by
    simpa using congrArg List.length m5
  have hp : ∀ x ∈ r.changes.list, rewoundChange x = x := by
    have : r.changes.list.map rewoundChange = r.changes.list :=
      (congrArg (fun r : Taf => r.changes.list) hr :)
    intro x hx
    exact List.map_inj_left.1 (this.trans (List.map_id _).symm) x hx
  refine ⟨e.trans (by rw [hr]), (congrArg (fun r : Taf => strip r.core.string) e :), ?_, ?_, by rw [hc],
    taf_dict_now db _ (by rw [m2]; omega) (by rw [hc]; omega) (by rw [m1]; omega) (by rw [m4]; omega)
      (by omega), ?_, fun hu => taf_dict_rewound e (changes_alone us hu r hp) hp⟩
  · have key : ∀ l : List ChangeForecasted,
        l.map (·.str.1) = ((l.map rewoundChange).map blankChange).map (·.str.1) := by
      intro l
      rw [List.map_map, List.map_map]
      rfl
    rw [key, m5, ← key]
  · have : (r.after us).core.prevailing = r.core.prevailing :=
      (congrArg (fun r : Taf => r.core.prevailing) e :)
    unfold Core.flightRules
    rw [this, hc]
  · refine taf_dict_rewound (kept_taf_after r _) ?_ hp
    rw [show r.after (us ++ [.dict]) = (r.after us).use .dict by
      unfold Taf.after; rw [List.foldl_append]; rfl]
    simp only [Taf.use, GroupList.onAll, List.mem_map]
    rintro x ⟨y, hy, rfl⟩
    rw [change_dict_state]
    rfl

/-! ### Concrete cases -/

/-- The codes of the clouds of the first trend or change in a dictionary. -/
def cloudCodes (key : PyStr) (d : Except Exc PyVal) : List PyStr :=
  (List.range 4).filterMap fun i =>
    lookText d [.name key, .name py!"first", .name py!"clouds", .idx i, .name py!"code"]

/-- C74: asking a trend `should_be_cavok()`, or looking at its first cloud in a loop that is left,
makes the next `as_dict()` lose that cloud. The one after it has it again. -/
theorem C74_trend_clouds_lost :
    (metarOk sampleClock py!"METAR SBGR 071200Z 27015KT 9999 FEW050 TEMPO 9999 FEW030 SCT100").map (fun r =>
      [[], [.trend 0 (.core (.cavok false))], [.trend 0 (.core .nextCloud)],
       [.trend 0 (.core (.cavok false)), .dict]].map fun us =>
        cloudCodes py!"weather_trends" ((r.after us).dict sampleDb)) =
    some [[py!"FEW030", py!"SCT100"], [py!"SCT100"], [py!"SCT100"], [py!"FEW030", py!"SCT100"]] := by
  decide +kernel

/-- The same of a change of a TAF. -/
theorem C74_change_clouds_lost :
    (tafOk sampleClock
      py!"TAF SBGR 071000Z 0712/0818 27015KT CAVOK BECMG 0800/0802 9999 FEW030 SCT100").map (fun r =>
      [[], [.change 0 (.core (.cavok false))], [.change 0 (.core .nextCloud), .dict],
       [.core (.cavok false), .nextChange, .nextMax, .changesStr, .change 0 .str]].map fun us =>
        cloudCodes py!"changes_forecasted" ((r.after us).dict sampleDb)) =
    some [[py!"FEW030", py!"SCT100"], [py!"SCT100"], [py!"FEW030", py!"SCT100"],
      [py!"FEW030", py!"SCT100"]] := by
  decide +kernel

end Verif.Props
