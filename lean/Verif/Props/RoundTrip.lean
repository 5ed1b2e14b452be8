import Verif.Props.RoundRuns
import Verif.Props.Sections
import Verif.Props.Time
import Verif.Props.Wind
import Verif.Props.Visibility
import Verif.Props.Weather
import Verif.Props.CloudReports
import Verif.Props.Temperatures
import Verif.Props.Runway
import Verif.Props.Codes
import Verif.Props.Report

/-
C50: the text of a METAR record is parsed into a report that says what the record states.
-/

namespace Verif.Props
open Spec MetarRegExp

/-! ### The positions one by one -/

theorem placesOf_eq {r : MetarRecord} (h : r.WF) : placesOf r =
    place 0 [if r.speci then py!"SPECI" else py!"METAR"] ++ (place 1 [r.station] ++
    (place 2 [timeText r.day r.hour r.minute] ++ (place 3 r.modifier.toList ++
    (place 4 (r.wind.toList.map WindGroup.text) ++ (place 5 (r.variation.toList.map VariationGroup.text) ++
    (place 6 (r.vis.toList.map VisGroup.text) ++ (place 7 (r.minVis.toList.map VisGroup.text) ++
    (place 8 (r.ranges.map RangeGroup.text) ++ (place 11 (r.weathers.map WeatherGroup.text) ++
    (place 14 (r.clouds.map Layer.text) ++ (place 18 (r.temps.toList.map TempGroup.text) ++
    (place 19 (r.pressures.map PressGroup.text) ++ (place 21 (r.recent.toList.map RecentGroup.text) ++
    (place 22 (r.shears.map fun s => s.group.text) ++ (place 25 (r.sea.toList.map SeaGroup.text) ++
      place 26 (r.state.toList.map RwyStateGroup.text)))))))))))))))) := by
  have e6 : place 6 (r.vis.toList.map VisGroup.text ++ r.minVis.toList.map VisGroup.text) =
      place 6 (r.vis.toList.map VisGroup.text) ++ place 7 (r.minVis.toList.map VisGroup.text) := by
    cases hv : r.vis with
    | none =>
      cases hm : r.minVis with
      | none => rfl
      | some w => exact absurd hv (h.minVis w hm).2.2
    | some v => cases r.minVis <;> rfl
  simp only [placesOf, runsOf, List.flatMap_cons, List.flatMap_nil, e6, List.append_nil, List.append_assoc,
    MetarRecord.front]
  rfl

/-- The groups taken at the positions of a record. -/
structure Taken (c : List (PyStr × Nat)) (r : MetarRecord) : Prop where
  type : taken c 0 0 = [if r.speci then py!"SPECI" else py!"METAR"]
  station : taken c 1 1 = [r.station]
  time : taken c 2 2 = [timeText r.day r.hour r.minute]
  modifier : taken c 3 3 = r.modifier.toList
  wind : taken c 4 4 = r.wind.toList.map WindGroup.text
  variation : taken c 5 5 = r.variation.toList.map VariationGroup.text
  vis : taken c 6 6 = r.vis.toList.map VisGroup.text
  minVis : taken c 7 7 = r.minVis.toList.map VisGroup.text
  ranges : taken c 8 10 = r.ranges.map RangeGroup.text
  weathers : taken c 11 13 = r.weathers.map WeatherGroup.text
  clouds : taken c 14 17 = r.clouds.map Layer.text
  temps : taken c 18 18 = r.temps.toList.map TempGroup.text
  pressures : taken c 19 20 = r.pressures.map PressGroup.text
  recent : taken c 21 21 = r.recent.toList.map RecentGroup.text
  shears : taken c 22 24 = r.shears.map fun s => s.group.text
  sea : taken c 25 25 = r.sea.toList.map SeaGroup.text
  state : taken c 26 26 = r.state.toList.map RwyStateGroup.text

theorem record_taken {r : MetarRecord} (h : r.WF) : Taken (placesOf r) r := by
  have l3 : r.modifier.toList.length ≤ 1 := by cases r.modifier <;> simp
  have l4 := opt_len r.wind WindGroup.text
  have l5 := opt_len r.variation VariationGroup.text
  have l6 := opt_len r.vis VisGroup.text
  have l7 := opt_len r.minVis VisGroup.text
  have l8 : (r.ranges.map RangeGroup.text).length ≤ 3 := by simpa using h.ranges.1
  have l11 : (r.weathers.map WeatherGroup.text).length ≤ 3 := by simpa using h.weathers.1
  have l14 : (r.clouds.map Layer.text).length ≤ 4 := by simpa using h.clouds.1
  have l18 := opt_len r.temps TempGroup.text
  have l19 : (r.pressures.map PressGroup.text).length ≤ 2 := by simpa using h.pressures.1
  have l21 := opt_len r.recent RecentGroup.text
  have l22 : (r.shears.map fun s => s.group.text).length ≤ 3 := by simpa using h.shears.1
  have l25 := opt_len r.sea SeaGroup.text
  have l26 := opt_len r.state RwyStateGroup.text
  have one : ∀ x : PyStr, [x].length = 1 := fun _ => rfl
  rw [placesOf_eq h]
  constructor <;>
  simp (disch := (first | omega | (simp only [one]; omega) | simp)) only [taken_append, taken_outside, taken_inside, List.nil_append,
    List.append_nil]

/-! ### What the report says -/

/-- The report says what the record states, and nothing else. -/
structure SaidBy (db : Database) (t : DT) (w : MetarRecord) (r : Metar) : Prop where
  type : r.type.code = some (if w.speci then py!"SPECI" else py!"METAR")
  station : StationOf db w.station r.station
  time : r.time.time = t
  modifier : r.modifier.code = w.modifier
  wind : Held windGrammar MetarWind.none w.wind r.core.wind
  variation : Held variationGrammar WindVariation.none w.variation r.windVariation
  vis : Held visGrammar Visibility.none w.vis r.core.prevailing
  minVis : Held minVisGrammar Visibility.none w.minVis r.minimumVisibility
  ranges : Each rangeGrammar.Says w.ranges r.runwayRanges.list
  weathers : Each weatherGrammar.Says w.weathers r.core.weathers.list
  clouds : Each cloudGrammar.Says w.clouds r.core.clouds.list
  temps : Held tempGrammar ⟨none, none, none⟩ w.temps r.temperatures
  /-- Of several pressures the last one. -/
  pressure : Held pressGrammar ⟨none, none⟩ w.pressures.getLast? r.pressure
  recent : Held recentGrammar RecentWeather.none w.recent r.recentWeather
  shears : Each shearGrammar.Says (w.shears.map Shear.group) r.windshears.list
  sea : Held seaGrammar ⟨none, none, none, none⟩ w.sea r.seaState
  state : Held rwyStateGrammar RunwayState.none w.state r.runwayState

theorem held_of {γ α : Type} {c : List (PyStr × Nat)} {i : Nat} {G : Grammar γ α} {d x : α} {o : Option γ}
    (h : ReadAt c i G d x) (ht : taken c i i = o.toList.map G.text) (hw : ∀ w, o = some w → G.WF w) :
    Held G d o x := by
  cases o with
  | none =>
    refine h.absent fun g hg => ?_
    rw [mem_taken, ht] at hg
    simp at hg
  | some w =>
    refine h.value w (hw w rfl) ?_
    rw [mem_taken, ht]
    simp

theorem each_of {γ α : Type} {G : Grammar γ α} {ws : List γ} {xs : List α}
    (h : Each (SaysText G) (ws.map G.text) xs) (hw : ∀ w ∈ ws, G.WF w) : Each G.Says ws xs := by
  induction ws generalizing xs with
  | nil => cases h; exact .nil
  | cons w ws ih =>
    cases h with
    | cons h1 h2 =>
      exact .cons (h1.2 w (hw w (by simp)) rfl) (ih h2 fun v hv => hw v (List.mem_cons_of_mem _ hv))

theorem heldLast_of {γ α : Type} {c : List (PyStr × Nat)} {lo hi : Nat} {G : Grammar γ α} {d x : α}
    {ws : List γ} (h : ReadLast c lo hi G d x) (ht : taken c lo hi = ws.map G.text)
    (hw : ∀ w ∈ ws, G.WF w) : Held G d ws.getLast? x := by
  cases hl : ws.getLast? with
  | none =>
    rw [List.getLast?_eq_none_iff] at hl
    subst hl
    exact h.2 ht
  | some w =>
    have := h.1 (G.text w) (by rw [ht, List.getLast?_map, hl]; rfl)
    exact this.2 w (hw w (List.mem_of_getLast? hl)) rfl

theorem code_of {c : List (PyStr × Nat)} {i : Nat} {d code : Option PyStr} (h : CodeFrom c i d code)
    {o : Option PyStr} (ht : taken c i i = o.toList) : (o = none → code = d) ∧ ∀ g, o = some g → code = some (shown g) := by
  rcases h with ⟨g, hg, hx⟩ | ⟨hg, hx⟩
  · rw [mem_taken, ht, Option.mem_toList] at hg
    subst hg
    exact ⟨fun h => (by cases h), fun g' h => (by cases h; exact hx)⟩
  · refine ⟨fun _ => hx, fun g h => ?_⟩
    subst h
    exact absurd (mem_taken.2 (by rw [ht]; simp)) (hg g)

theorem isTime_day {t : DT} (h : IsTime t) : t.day ≤ 31 := by
  obtain ⟨-, -, ⟨-, n, hn, hd⟩, -, -⟩ := h
  have : ∀ n ∈ monthLengths t.year, n ≤ 31 := by
    intro n hn
    simp only [monthLengths, List.mem_cons, List.not_mem_nil, or_false] at hn
    split at hn <;> omega
  have := this n (List.mem_of_getElem? hn)
  omega

theorem append_inj3 {a b c a' b' c' z : PyStr} (ha : a.length = a'.length) (hb : b.length = b'.length)
    (hc : c.length = c'.length) (h : a ++ b ++ c ++ z = a' ++ b' ++ c' ++ z) : a = a' ∧ b = b' ∧ c = c' := by
  have h1 := (List.append_inj h (by simp [ha, hb, hc])).1
  obtain ⟨h2, h3⟩ := List.append_inj h1 (by simp [ha, hb])
  obtain ⟨h4, h5⟩ := List.append_inj h2 ha
  exact ⟨h4, h5, h3⟩

/-- The time of a record. -/
theorem time_reads {now : Now} {a : Args} {y mo d h i : Nat} (hy : a.year.getD now.year = (y : Int))
    (hmo : a.month.getD now.month = (mo : Int)) (hy1 : 1000 ≤ y)
    (ht : IsTime ⟨y, mo, d, h, i⟩) {m : Match} (hm : TIME.match (timeText d h i) = some m) :
    ∃ code, Time.fromMetar now (some m) a.year a.month = .ok ⟨code, ⟨y, mo, d, h, i⟩⟩ := by
  have hd := isTime_day ht
  have hh := ht.hour
  have hi := ht.minute
  simp only at hd hh hi
  obtain ⟨d', h', i', e, l1, l2, l3, -, -, -, hv, -⟩ := time_value hy hmo hy1 ht.year.2 ht.month.1 ht.month.2 hm
    (time_noNl _ _ _)
  obtain ⟨rfl, rfl, rfl⟩ := append_inj3 (by rw [l1, padNat_two (by omega)]; rfl)
    (by rw [l2, padNat_two (by omega)]; rfl) (by rw [l3, padNat_two (by omega)]; rfl) e
  simp only [padNat_val] at hv
  exact ⟨_, hv ht⟩

/-- The methods succeed on the groups of a record. -/
theorem record_total {db : Database} {now : Now} {a : Args} {y mo : Nat} {r : MetarRecord} (h : r.WF)
    (hy : a.year.getD now.year = (y : Int)) (hmo : a.month.getD now.month = (mo : Int)) (hy1 : 1000 ≤ y)
    (ht : IsTime ⟨y, mo, r.day, r.hour, r.minute⟩) {text : PyStr} (htext : splitC 32 text = groupsOf r)
    {s : Metar} (h0 : MetarRoom 0 s) :
    ∃ s', parseSection (Metar.handlers db now a) text s = .ok (s', []) := by
  have hdom : (1 ≤ r.day ∧ r.day ≤ 31) ∧ r.hour ≤ 23 ∧ r.minute ≤ 59 :=
    ⟨⟨ht.day.1, isTime_day ht⟩, ht.hour, ht.minute⟩
  have hf := (record_runs (db := db) (now := now) (a := a) h hdom).fits
  have hd := hf.decodes
  have hl := hf.leftover
  have hT := record_taken h
  change Decodes _ ((placesOf r).map (·.1)) (placesOf r) at hd
  change leftover ((placesOf r).map (·.1)) (assign _ 0 ((placesOf r).map (·.1))) = [] at hl
  rw [placesOf_groups, ← htext] at hd hl
  have hall : AllIdx (HandlerOk (fun _ => False) MetarRoom fun i g => (g, i) ∈ placesOf r) 0
      (Metar.handlers db now a) := by
    refine metarHandlers db now a (fun g m hg hm => ?_) (fun g m hg hm => ?_) (fun g m hg hm => ?_)
    · simp only [mem_taken] at hg
      rw [hT.time, List.mem_singleton] at hg
      subst hg
      obtain ⟨_, e⟩ := time_reads hy hmo hy1 ht hm
      rw [e]; exact Raises.ok _
    · simp only [mem_taken] at hg
      rw [hT.vis] at hg
      simp only [List.mem_map, Option.mem_toList] at hg
      obtain ⟨v, hv, rfl⟩ := hg
      obtain ⟨m', h1, -, h2⟩ := metarVis_match v (h.vis v hv).1
      rw [hm] at h1
      cases h1
      obtain ⟨x, hx, -⟩ := h2 (h.vis v hv).2
      rw [hx]; exact Raises.ok _
    · simp only [mem_taken] at hg
      rw [hT.minVis] at hg
      simp only [List.mem_map, Option.mem_toList] at hg
      obtain ⟨v, hv, rfl⟩ := hg
      obtain ⟨⟨hw, n, dir, rfl⟩, hr, -⟩ := h.minVis v hv
      obtain ⟨m', h1, -, h2⟩ := minVis_match n dir hw
      rw [hm] at h1
      cases h1
      obtain ⟨x, hx, -⟩ := h2 hr
      rw [hx]; exact Raises.ok _
  obtain ⟨s', hs⟩ := parseSection_total (fun _ _ h => h.mono) hall hd (fun _ _ hg => hg) h0
  exact ⟨s', by rw [hs]; exact congrArg (fun l => Except.ok (s', l)) hl⟩

/-- What a report whose body is the text of a record says. -/
theorem record_said {db : Database} {clock : Clock} {a : Args} {y mo : Nat} {w : MetarRecord} (h : w.WF)
    (hy : a.year.getD (clock 2).year = (y : Int)) (hmo : a.month.getD (clock 2).month = (mo : Int))
    (hy1 : 1000 ≤ y) (ht : IsTime ⟨y, mo, w.day, w.hour, w.minute⟩) {code : PyStr} {r : Metar}
    (hr : Metar.new db clock code a = .ok r) (hb : r.body = join [32] w.words) :
    SaidBy db ⟨y, mo, w.day, w.hour, w.minute⟩ w r ∧
      r.unparsed = r.weatherTrends.list.flatMap ChangePeriod.unparsed := by
  have hdom : (1 ≤ w.day ∧ w.day ≤ 31) ∧ w.hour ≤ 23 ∧ w.minute ≤ 59 :=
    ⟨⟨ht.day.1, isTime_day ht⟩, ht.hour, ht.minute⟩
  have hf := (record_runs (db := db) (now := clock 2) (a := a) h hdom).fits
  have hd : Decodes (Metar.handlers db (clock 2) a) (metarGroups r.body) (placesOf w) := by
    rw [hb, record_groups h hdom, ← placesOf_groups]
    exact hf.decodes
  have hT := record_taken h
  obtain ⟨q0, q1, -, q3, -⟩ := C53_metar_codes db clock code a r hr _ hd
  have shearWF : ∀ s ∈ w.shears.map Shear.group, s.WF := by
    intro s hs
    obtain ⟨s, hs', rfl⟩ := List.mem_map.1 hs
    have := h.shears.2 s hs'
    cases s with
    | all => intro r hr; cases hr
    | runway l w => intro r hr; cases hr; exact this
  refine ⟨⟨?_, ?_, ?_, ?_, ?_, ?_, ?_, ?_, ?_, ?_, ?_, ?_, ?_, ?_, ?_, ?_, ?_⟩, ?_⟩
  · rw [(code_of q0 (o := some _) hT.type).2 _ rfl]
    cases w.speci <;> rfl
  · rcases (C54_report db clock code a).1 r _ hr hd with ⟨g, hg, hs⟩ | ⟨hg, -⟩
    · rw [mem_taken, hT.station, List.mem_singleton] at hg
      exact hg ▸ hs
    · exact absurd (mem_taken.2 (by rw [hT.station]; simp)) (hg w.station)
  · obtain ⟨_, -, -, hR, -⟩ := Metar.new_decodes hr hd
    rcases hR.time with ⟨g, m, hg, hm, hx⟩ | ⟨hg, -⟩
    · rw [mem_taken, hT.time, List.mem_singleton] at hg
      subst hg
      obtain ⟨c, e⟩ := time_reads hy hmo hy1 ht hm
      have := e.symm.trans hx
      rw [← Except.ok.inj this]
    · exact absurd (mem_taken.2 (by rw [hT.time]; simp)) (hg (timeText w.day w.hour w.minute))
  · cases hm : w.modifier with
    | none => exact (code_of q3 hT.modifier).1 hm
    | some g =>
      rw [(code_of q3 hT.modifier).2 g hm]
      have : ∀ g ∈ modifiers, shown g = g := by decide
      rw [this g (h.modifier g hm)]
  · exact held_of ((C16_reports db clock code a).1 r _ hr hd) hT.wind h.wind
  · exact held_of (C20_report db clock code a r hr _ hd) hT.variation h.variation
  · exact held_of ((C21_reports db clock code a).1 r _ hr hd).1 hT.vis fun v hv => (h.vis v hv).1
  · exact held_of ((C21_reports db clock code a).1 r _ hr hd).2 hT.minVis fun v hv => (h.minVis v hv).1
  · refine each_of ?_ h.ranges.2
    have := C25_report db clock code a r _ hr hd
    rwa [ReadAll, hT.ranges] at this
  · refine each_of ?_ fun _ _ => trivial
    have := (C26_reports db clock code a).1 r _ hr hd
    rwa [ReadAll, hT.weathers] at this
  · refine each_of ?_ h.clouds.2
    have := (C27_reports db clock code a).1 r _ hr hd
    rwa [ReadAll, hT.clouds] at this
  · exact held_of (C33_report db clock code a r _ hr hd) hT.temps h.temps
  · exact heldLast_of (C34_report db clock code a r _ hr hd) hT.pressures fun g hg => (h.pressures.2 g hg).1
  · exact held_of (C38_report db clock code a r hr _ hd) hT.recent h.recent
  · refine each_of ?_ shearWF
    have := (C35_report db clock code a r _ hr hd).1
    rw [ReadAll, hT.shears] at this
    rw [List.map_map]
    exact this
  · exact held_of (C36_report db clock code a r _ hr hd) hT.sea h.sea
  · exact held_of (C37_report db clock code a r _ hr hd) hT.state h.state
  · obtain ⟨_, time, asg, _, -, -, e1, e2, -, -, -, -, -, e3, -, e4, -⟩ := Metar.new_reading hr
    have hbt : Metar.bodyText (normalizeCode code) = sanitizeWindshear (sanitizeVisibility r.body) := by
      unfold Metar.body
      rw [e4]
      rfl
    have hg : splitC 32 (Metar.bodyText (normalizeCode code)) = groupsOf w := by
      rw [hbt, hb]; exact record_groups h hdom
    have hasg : asg = assign (Metar.handlers db (clock 2) a) 0 (groupsOf w) := by
      rw [← hg]
      exact firstApplicable_unique _ _ _ _ e1 (assign_length _ _ _) e2 (assign_firstApplicable _ _)
    rw [e3, hasg, hg, ← placesOf_groups]
    rw [show leftover ((placesOf w).map (·.1)) (assign (Metar.handlers db (clock 2) a) 0
      ((placesOf w).map (·.1))) = [] from hf.leftover]
    rfl

theorem record_text_ne (w : MetarRecord) (trends : List (PyStr × List PyStr))
    (remark : Option (PyStr × List PyStr)) : join [32] (metarText w.words trends remark) ≠ [] := by
  simp only [metarText, MetarRecord.words, MetarRecord.front, List.cons_append]
  rw [join_cons_ne (by simp)]
  split <;> simp

/-- Any text that normalises to the words of a record, with a remark or without. -/
theorem round_trip_code (db : Database) (clock : Clock) (a : Args) (w : MetarRecord)
    (remark : Option (PyStr × List PyStr)) (y mo : Nat) (hs : Sane clock)
    (hy : a.year.getD (clock 2).year = (y : Int)) (hmo : a.month.getD (clock 2).month = (mo : Int))
    (hy1 : 1000 ≤ y) (hw : w.WF) (ht : IsTime ⟨y, mo, w.day, w.hour, w.minute⟩)
    (hr : ∀ p ∈ remark, Part [py!"RMK"] metarWords p) (code : PyStr)
    (hcode : normalizeCode code = join [32] (metarText w.words [] remark)) :
    ∃ r, Metar.new db clock code a = .ok r ∧
      SaidBy db ⟨y, mo, w.day, w.hour, w.minute⟩ w r ∧ r.weatherTrends.list = [] ∧ r.unparsed = [] := by
  have hdom : (1 ≤ w.day ∧ w.day ≤ 31) ∧ w.hour ≤ 23 ∧ w.minute ≤ 59 :=
    ⟨⟨ht.day.1, isTime_day ht⟩, ht.hour, ht.minute⟩
  have hwne : w.words ≠ [] := by simp [MetarRecord.words, MetarRecord.front]
  have hne : code ≠ [] := by
    rintro rfl
    have h0 : normalizeCode [] = [] := by decide
    rw [h0] at hcode
    exact record_text_ne w _ _ hcode.symm
  obtain ⟨hn, h1, h2, -⟩ := metarSections_text w.words [] remark hwne (record_words hw hdom) (by simp) hr
  have hbt : splitC 32 (Metar.bodyText (normalizeCode code)) = groupsOf w := by
    unfold Metar.bodyText
    rw [hcode, h1]
    exact record_groups hw hdom
  have key : ∃ r, Metar.new db clock code a = .ok r := by
    rw [Metar.new_eq db clock code a hne]
    obtain ⟨_, _, -, -, -, -, -, -, ht0⟩ := default_time hs 0 none none (by simp) (by simp)
    have hy2 := ht.year.2
    have hm2 := ht.month
    simp only at hy2 hm2
    obtain ⟨_, _, -, -, -, -, -, -, ht1⟩ := default_time hs 1 a.year a.month
      (fun x hx => by rw [hx] at hy; simp at hy; omega)
      (fun x hx => by rw [hx] at hmo; simp at hmo; omega)
    rw [ht0, ok_bind]
    have : Time.fromMetar (clock 1) none a.year a.month = _ := ht1
    rw [this, ok_bind]
    obtain ⟨s', hs'⟩ := record_total (db := db) hw hy hmo hy1 ht hbt (Metar.start_room (normalizeCode code) _)
    have hf := Metar.parse_frame hs'
    have htr : s'.trend = [] := by
      unfold Metar.trend
      rw [hf.sections]
      show (metarSections (normalizeCode code)).2.1 = []
      rw [hcode, h2]
      rfl
    rw [hs', ok_bind]
    simp only
    have hsp : splitSentence [] [py!"TEMPO", py!"BECMG"] 1 .both = [[]] := by decide +kernel
    rw [htr, hsp]
    simp only [Metar.trendsGo, ne_eq, not_true_eq_false, if_false, ok_bind]
    refine ⟨_, if_neg fun h => h.1 ?_⟩
    unfold Metar.finish
    simp only
    rw [hf.trends, hf.unparsed]
    rfl
  obtain ⟨r, hnew⟩ := key
  have hb : r.body = join [32] w.words := by
    rw [(Metar.new_sections hnew).1, hcode, h1]
  obtain ⟨q1, q2⟩ := record_said hw hy hmo hy1 ht hnew hb
  have q3 : r.weatherTrends.list = [] := by
    obtain ⟨_, _, _, _, -, -, -, -, -, -, -, he, -⟩ := Metar.new_reading hnew
    have : (Metar.trendParts (normalizeCode code)).filter (· ≠ []) = [] := by
      unfold Metar.trendParts
      rw [hcode, h2]
      decide +kernel
    rw [this] at he
    generalize r.weatherTrends.list = l at he
    cases he
    rfl
  exact ⟨r, hnew, q1, q3, by rw [q2, q3]; rfl⟩

/-- C50. The words of a METAR record joined by blanks, with a remark or without, are parsed without
exception into a report that says exactly what the record states, with no trend and no unparsed
group. -/
theorem C50_round_trip (db : Database) (clock : Clock) (a : Args) (w : MetarRecord)
    (remark : Option (PyStr × List PyStr)) (y mo : Nat) (hs : Sane clock)
    (hy : a.year.getD (clock 2).year = (y : Int)) (hmo : a.month.getD (clock 2).month = (mo : Int))
    (hy1 : 1000 ≤ y) (hw : w.WF) (ht : IsTime ⟨y, mo, w.day, w.hour, w.minute⟩)
    (hr : ∀ p ∈ remark, Part [py!"RMK"] metarWords p) :
    ∃ r, Metar.new db clock (join [32] (metarText w.words [] remark)) a = .ok r ∧
      SaidBy db ⟨y, mo, w.day, w.hour, w.minute⟩ w r ∧ r.weatherTrends.list = [] ∧ r.unparsed = [] := by
  have hdom : (1 ≤ w.day ∧ w.day ≤ 31) ∧ w.hour ≤ 23 ∧ w.minute ≤ 59 :=
    ⟨⟨ht.day.1, isTime_day ht⟩, ht.hour, ht.minute⟩
  have hwne : w.words ≠ [] := by simp [MetarRecord.words, MetarRecord.front]
  obtain ⟨hn, -⟩ := metarSections_text w.words [] remark hwne (record_words hw hdom) (by simp) hr
  exact round_trip_code db clock a w remark y mo hs hy hmo hy1 hw ht hr _ hn

/-- C50. The same whatever white space separates and surrounds the words. -/
theorem C50_layout (db : Database) (clock : Clock) (a : Args) (w : MetarRecord)
    (remark : Option (PyStr × List PyStr)) (y mo : Nat) (hs : Sane clock)
    (hy : a.year.getD (clock 2).year = (y : Int)) (hmo : a.month.getD (clock 2).month = (mo : Int))
    (hy1 : 1000 ≤ y) (hw : w.WF) (ht : IsTime ⟨y, mo, w.day, w.hour, w.minute⟩)
    (hr : ∀ p ∈ remark, Part [py!"RMK"] metarWords p) (lead trail first : PyStr)
    (rest : List (PyStr × PyStr)) (hl : White lead) (htr : White trail)
    (hsep : ∀ p ∈ rest, Separator p.1) (hws : first :: rest.map (·.2) = metarText w.words [] remark) :
    ∃ r, Metar.new db clock (lead ++ layout first rest ++ trail) a = .ok r ∧
      SaidBy db ⟨y, mo, w.day, w.hour, w.minute⟩ w r ∧ r.weatherTrends.list = [] ∧ r.unparsed = [] := by
  have hdom : (1 ≤ w.day ∧ w.day ≤ 31) ∧ w.hour ≤ 23 ∧ w.minute ≤ 59 :=
    ⟨⟨ht.day.1, isTime_day ht⟩, ht.hour, ht.minute⟩
  have hall : ∀ v ∈ first :: rest.map (·.2), Word v := by
    rw [hws]
    intro v hv
    simp only [metarText, List.flatMap_nil, List.append_nil, List.mem_append, List.mem_flatMap,
      Option.mem_toList] at hv
    rcases hv with hv | ⟨p, hp, hv⟩
    · exact (record_words hw hdom v hv).1.1
    · obtain ⟨h1, -, h2⟩ := hr p hp
      rcases List.mem_cons.1 hv with rfl | hv
      · exact h1.1
      · exact (h2 v hv).1.1
  refine round_trip_code db clock a w remark y mo hs hy hmo hy1 hw ht hr _ ?_
  rw [normalizeCode_layout lead trail first rest hl htr (hall _ (by simp)) fun p hp =>
    ⟨hsep p hp, hall _ (List.mem_cons_of_mem _ (List.mem_map_of_mem hp))⟩, hws]

/-- A record with a group of every kind. -/
def sampleRecord : MetarRecord where
  speci := true
  station := py!"KJFK"
  day := 15
  hour := 12
  minute := 51
  modifier := some py!"AUTO"
  wind := some ⟨.tens 23, false, .digits py!"15", some (false, py!"27"), false⟩
  variation := some ⟨20, 26⟩
  vis := some (.range ⟨.exact, some py!"1", true, some (49, 50), .sm⟩)
  minVis := some (.metres (.digits py!"0350") (some py!"NW"))
  ranges := [⟨⟨py!"04", some .right⟩, ⟨some .below, py!"0600"⟩, some ⟨none, py!"1000"⟩, true, some .up⟩]
  weathers := [⟨some .heavy, some .TS, some (.prec .RA)⟩, ⟨none, none, some (.obsc .BR)⟩]
  clouds := [⟨.bkn, .hundreds py!"010", .cb⟩, ⟨.ovc, .hundreds py!"025", .absent⟩]
  temps := some ⟨⟨none, .digits py!"18"⟩, ⟨some .letter, .digits py!"02"⟩⟩
  pressures := [⟨some .Q, some py!"1013", false⟩, ⟨some .A, some py!"2992", false⟩]
  recent := some ⟨some .FZ, some .RA, none, none⟩
  shears := [.all, .runway true ⟨py!"04", some .right⟩]
  sea := some ⟨false, py!"19", .state 52⟩
  state := some ⟨some ⟨py!"88", none⟩, .clrd⟩

theorem sampleRecord_wf : sampleRecord.WF where
  station := ⟨by decide, by decide, by decide⟩
  noRemark := by decide
  modifier := by rintro _ ⟨⟩; decide
  wind := by
    rintro _ ⟨⟩
    refine ⟨?_, ⟨by decide, by decide⟩, ?_⟩
    · show 23 ≤ 36; decide
    rintro p ds ⟨⟩
    exact ⟨by decide, by decide⟩
  variation := by rintro _ ⟨⟩; exact ⟨by decide, by decide, by decide, by decide⟩
  vis := by
    rintro _ ⟨⟩
    refine ⟨⟨?_, ?_⟩, by decide⟩
    · rintro _ ⟨⟩; decide
    · rintro _ _ ⟨⟩; decide
  minVis := by
    rintro _ ⟨⟩
    refine ⟨⟨⟨⟨rfl, by decide⟩, ?_⟩, _, _, rfl⟩, by decide, by decide⟩
    rintro _ ⟨⟩; decide
  ranges := by
    refine ⟨by decide, fun w hw => ?_⟩
    rw [List.mem_singleton.1 hw]
    refine ⟨⟨rfl, by decide⟩, ⟨by decide, by decide⟩, fun v hv => ?_⟩
    cases hv
    exact ⟨by decide, by decide⟩
  weathers := ⟨by decide, by decide⟩
  clouds := by
    refine ⟨by decide, fun w hw => ?_⟩
    simp only [sampleRecord, List.mem_cons, List.not_mem_nil, or_false] at hw
    rcases hw with rfl | rfl <;> exact ⟨rfl, by decide⟩
  temps := by rintro _ ⟨⟩; exact ⟨⟨rfl, by decide⟩, ⟨rfl, by decide⟩⟩
  pressures := by
    refine ⟨by decide, fun w hw => ⟨?_, fun _ => by decide⟩⟩
    simp only [sampleRecord, List.mem_cons, List.not_mem_nil, or_false] at hw
    rcases hw with rfl | rfl <;> (rintro _ ⟨⟩; exact ⟨rfl, by decide⟩)
  recent := by rintro _ ⟨⟩; exact ⟨by simp, by simp⟩
  shears := by
    refine ⟨by decide, fun w hw => ?_⟩
    simp only [sampleRecord, List.mem_cons, List.not_mem_nil, or_false] at hw
    rcases hw with rfl | rfl
    · trivial
    · exact ⟨rfl, by decide⟩
  sea := by rintro _ ⟨⟩; exact ⟨⟨rfl, by decide⟩, rfl⟩
  state := by
    rintro _ ⟨⟩
    refine ⟨?_, trivial⟩
    rintro _ ⟨⟩
    exact ⟨rfl, by decide⟩
  goesOn := by intro _; decide

example : ∃ r, Metar.new sampleDb sampleClock
      py!"SPECI KJFK 151251Z AUTO 23015G27KT 200V260 1 1/2SM 0350NW R04R/M0600V1000FTU +TSRA BR BKN010CB OVC025 18/M02 Q1013 A2992 REFZRA WS ALL RWY WS RWY04R W19/S4 R88/CLRD// RMK AO2" {} = .ok r ∧
    SaidBy sampleDb ⟨2024, 6, 15, 12, 51⟩ sampleRecord r ∧ r.weatherTrends.list = [] ∧ r.unparsed = [] := by
  have e : join [32] (metarText sampleRecord.words [] (some (py!"RMK", [py!"AO2"]))) =
      py!"SPECI KJFK 151251Z AUTO 23015G27KT 200V260 1 1/2SM 0350NW R04R/M0600V1000FTU +TSRA BR BKN010CB OVC025 18/M02 Q1013 A2992 REFZRA WS ALL RWY WS RWY04R W19/S4 R88/CLRD// RMK AO2" := by
    decide +kernel
  rw [← e]
  refine C50_round_trip sampleDb sampleClock {} sampleRecord _ 2024 6 sane_sample.1 rfl rfl (by decide)
    sampleRecord_wf ?_ ?_
  · exact ⟨by decide, by decide, ⟨by decide, 30, by decide, by decide⟩, by decide, by decide⟩
  · rintro _ ⟨⟩
    refine ⟨⟨⟨by decide, by decide⟩, by decide⟩, by decide, fun w hw => ?_⟩
    rw [List.mem_singleton.1 hw]
    exact ⟨⟨⟨by decide, by decide⟩, by decide⟩, by decide⟩

/-- A record with a station and a time. -/
def shortRecord : MetarRecord where
  station := py!"KJFK"
  day := 15
  hour := 12
  minute := 0

/-- C50, what the conditions on a record are for: a station RMKX is taken for a remark, a pressure
without unit and without temperatures before it for a visibility, a visibility of two words at the
end leaves an empty group that is taken for weather, and a second pressure replaces the first. -/
theorem C50_counterexample :
    ((metarOk sampleClock (join [32] { shortRecord with station := py!"RMKX" }.words)).map
      fun r => (r.station.code, r.time.code)) = some (none, none) ∧
    ((metarOk sampleClock (join [32]
        { shortRecord with pressures := [⟨none, some py!"1013", false⟩] }.words)).map
      fun r => (r.pressure.value, r.core.prevailing.vis)) = some (none, some ⟨1013, false⟩) ∧
    ((metarOk sampleClock (join [32]
        { shortRecord with vis := some (.range ⟨.exact, some py!"1", true, some (49, 50), .sm⟩) }.words)).map
      fun r => r.core.weathers.list.length) = some 1 ∧
    ((metarOk sampleClock (join [32] { shortRecord with
        pressures := [⟨some .Q, some py!"1013", false⟩, ⟨some .A, some py!"2992", false⟩] }.words)).map
      fun r => r.pressure.code) = some (some py!"A2992") := by
  decide +kernel

end Verif.Props
