import Verif.Lemmas.RunwayState
import Verif.Props.Exceptions

/-
C25, C35, C36, C37: runway range, wind shear, sea state and runway state groups.
-/

namespace Verif.Props
open Verif.Spec

/-! ### C25 -/

/-- C25. Every runway range group is accepted and gives the runway in words, the ranges in metres
(exactly, or up to a relative error of 1e-15 when stated in feet), the limits and the tendency, `None`
for the absent parts; nothing else is accepted. -/
theorem C25_runway_range :
    (∀ g : RangeGroup, g.WF → ∃ m x, MetarRegExp.RUNWAY_RANGE.match g.text = some m ∧
      RunwayRange.new m = .ok x ∧ RangeSays g x) ∧
    ∀ s m, MetarRegExp.RUNWAY_RANGE.match s = some m → 10 ∉ s → ∃ g : RangeGroup, g.WF ∧ s = g.text :=
  range_reads

/-- C25. The runway ranges of a METAR say, in order, what the range groups decoded in it state. -/
theorem C25_report (db : Database) (clock : Clock) (code : PyStr) (a : Args) (r : Metar)
    (c : List (PyStr × Nat)) (h : Metar.new db clock code a = .ok r)
    (hc : Decodes (Metar.handlers db (clock 2) a) (metarGroups r.body) c) :
    ReadAll c 8 10 rangeGrammar r.runwayRanges.list := by
  obtain ⟨_, -, ho, hR, hn⟩ := Metar.new_decodes h hc
  exact range_reads.ifOk.all hR.ranges.1 hn

/-- Groups for the theorems above. -/
example : (RangeGroup.mk ⟨py!"07", some .right⟩ ⟨some .below, py!"0150"⟩ (some ⟨some .above, py!"2000"⟩)
    true (some .down)).text = py!"R07R/M0150VP2000FTD" := by decide
example : (RangeGroup.mk ⟨py!"07", some .right⟩ ⟨some .below, py!"0150"⟩ (some ⟨some .above, py!"2000"⟩)
    true (some .down)).WF := by
  refine ⟨⟨rfl, by decide⟩, ⟨by decide, by decide⟩, fun v hv => ?_⟩
  cases hv
  exact ⟨by decide, by decide⟩
example : (RunwayCode.mk py!"07" (some .right)).spoken = py!"07 right" ∧
    (RunwayCode.mk py!"88" none).spoken = py!"all runways" := by decide
/-- The tendency after a slash is not accepted. -/
example : MetarRegExp.RUNWAY_RANGE.match py!"R07/0600FT/U" = none := by decide +kernel

/-! ### C35 -/

/-- C35. Every wind shear group (words joined by `_`) is accepted; it names the runway in words, or
none, and tells whether it says `ALL`; nothing else is accepted. -/
theorem C35_wind_shear :
    (∀ g : ShearGroup, g.WF → ∃ m, MetarRegExp.WINDSHEAR.match g.text = some m ∧
      (Windshear.new m).all_ = g.all ∧ (Windshear.new m).name = g.runway.map RunwayCode.plain) ∧
    ∀ s m, MetarRegExp.WINDSHEAR.match s = some m → 10 ∉ s → ∃ g : ShearGroup, g.WF ∧ s = g.text := by
  refine ⟨fun g hg => ?_, shear_reads.2⟩
  obtain ⟨m, x, h1, h2, -, h3⟩ := shear_reads.1 g hg
  cases h2
  exact ⟨m, h1, h3⟩

theorem each_shear {gs : List PyStr} {xs : List Windshear} (h : Each (SaysText shearGrammar) gs xs) :
    ∃ ws : List ShearGroup, gs = ws.map ShearGroup.text ∧ (∀ w ∈ ws, w.WF) ∧
      xs.map Windshear.all_ = ws.map ShearGroup.all ∧
      xs.map Windshear.name = ws.map fun w => w.runway.map RunwayCode.plain := by
  induction h with
  | nil => exact ⟨[], rfl, (by simp), rfl, rfl⟩
  | cons h1 _ ih =>
    obtain ⟨⟨w, hw, rfl⟩, hs⟩ := h1
    obtain ⟨-, s1, s2⟩ := hs w hw rfl
    obtain ⟨ws, rfl, hws, e1, e2⟩ := ih
    refine ⟨w :: ws, rfl, ?_, ?_, ?_⟩
    · intro v hv
      rcases List.mem_cons.1 hv with rfl | hv
      · exact hw
      · exact hws v hv
    · simp [s1, e1]
    · simp [s2, e2]

/-- C35. The wind shears of a METAR say, in order, what the wind shear groups decoded in it state;
`all_runways` is `True` exactly when there is a single group and it says `ALL`, and then `names` is
empty; otherwise `names` lists the runways of the groups in order. -/
theorem C35_report (db : Database) (clock : Clock) (code : PyStr) (a : Args) (r : Metar)
    (c : List (PyStr × Nat)) (h : Metar.new db clock code a = .ok r)
    (hc : Decodes (Metar.handlers db (clock 2) a) (metarGroups r.body) c) :
    ReadAll c 22 24 shearGrammar r.windshears.list ∧
    ∃ ws : List ShearGroup, taken c 22 24 = ws.map ShearGroup.text ∧ (∀ w ∈ ws, w.WF) ∧
      (allRunways r.windshears.list = true ↔ ∃ w, ws = [w] ∧ w.all = true) ∧
      (allRunways r.windshears.list = true → windshearNames r.windshears.list = []) ∧
      (allRunways r.windshears.list = false →
        windshearNames r.windshears.list = ws.map fun w => w.runway.map RunwayCode.plain) := by
  obtain ⟨_, -, ho, hR, hn⟩ := Metar.new_decodes h hc
  have hall := shear_reads.ifOk.all hR.windshears.1 hn
  refine ⟨hall, ?_⟩
  obtain ⟨ws, e, hw, ha, hnm⟩ := each_shear hall
  refine ⟨ws, e, hw, ?_, ?_, ?_⟩
  · generalize r.windshears.list = xs at *
    match xs, ws with
    | [], [] => simp [allRunways]
    | [x], [w] =>
      simp only [List.map_cons, List.map_nil, List.cons.injEq, and_true] at ha
      simp [allRunways, ha]
    | x :: y :: xs, w :: v :: ws => simp [allRunways]
    | [], _ :: _ => simp at ha
    | _ :: _, [] => simp at ha
    | [_], _ :: _ :: _ => simp at ha
    | _ :: _ :: _, [_] => simp at ha
  · intro ht
    simp [windshearNames, ht]
  · intro hf
    simp [windshearNames, hf, hnm]

/-- Groups for the theorems above. -/
example : (ShearGroup.mk false (some ⟨py!"07", some .left⟩)).text = py!"WS_R07L" ∧
    (ShearGroup.mk true none).text = py!"WS_ALL_RWY" := by decide
example : (ShearGroup.mk false (some ⟨py!"07", some .left⟩)).WF := by
  intro r hr
  cases hr
  exact ⟨rfl, by decide⟩

/-- Reports with wind shear groups: the words are joined before the groups are cut. -/
example : (match Metar.new sampleDb sampleClock
      py!"METAR SKBO 151200Z 23015KT 9999 FEW010 18/17 Q1012 WS R07L WS RWY25" {} with
    | .ok r => decide (windshearNames r.windshears.list = [some py!"07 left", some py!"25"] ∧
        allRunways r.windshears.list = false)
    | .error _ => false) = true := by decide +kernel
example : (match Metar.new sampleDb sampleClock
      py!"METAR SKBO 151200Z 23015KT 9999 FEW010 18/17 Q1012 WS ALL RWY" {} with
    | .ok r => decide (windshearNames r.windshears.list = [] ∧
        allRunways r.windshears.list = true)
    | .error _ => false) = true := by decide +kernel

/-! ### C36 -/

/-- C36. Every sea state group is accepted and gives the temperature in degrees and either the state
of the sea in words or the height of the waves in metres (the nearest double); nothing else is
accepted. -/
theorem C36_sea_state :
    (∀ g : SeaGroup, g.WF → ∃ m x, MetarRegExp.SEA_STATE.match g.text = some m ∧
      SeaState.new m = .ok x ∧ x.temperature = some (signed g.minus (digitsVal g.temp)) ∧
      x.state = g.value.stateWord ∧ x.height = g.value.metres) ∧
    ∀ s m, MetarRegExp.SEA_STATE.match s = some m → 10 ∉ s → ∃ g : SeaGroup, g.WF ∧ s = g.text := by
  refine ⟨fun g hg => ?_, sea_reads.2⟩
  obtain ⟨m, x, h1, h2, -, h3⟩ := sea_reads.1 g hg
  exact ⟨m, x, h1, h2, h3⟩

/-- C36. The sea state of a METAR is the one stated by the group decoded in it. -/
theorem C36_report (db : Database) (clock : Clock) (code : PyStr) (a : Args) (r : Metar)
    (c : List (PyStr × Nat)) (h : Metar.new db clock code a = .ok r)
    (hc : Decodes (Metar.handlers db (clock 2) a) (metarGroups r.body) c) :
    ReadAt c 25 seaGrammar ⟨none, none, none, none⟩ r.seaState := by
  obtain ⟨_, -, ho, hR, hn⟩ := Metar.new_decodes h hc
  exact sea_reads.ifOk.at hR.sea ho hn

/-- Groups for the theorems above. -/
example : (SeaGroup.mk true py!"02" (.height py!"015")).text = py!"WM02/H015" ∧
    (SeaGroup.mk false py!"19" (.state 52)).text = py!"W19/S4" ∧
    (SeaGroup.mk false py!"19" (.state 52)).value.stateWord = some py!"moderate" := by decide
example : (SeaGroup.mk true py!"02" (.height py!"015")).WF :=
  ⟨⟨rfl, by decide⟩, rfl, by decide⟩
example : (SeaGroup.mk true py!"02" (.height py!"015")).value.metres = some ⟨3 / 2, false⟩ := by
  decide +kernel

/-! ### C37 -/

/-- C37. Every runway state group is accepted and gives the runway in words and deposits,
contamination, depth and friction by the WMO tables (`None` where these have no entry), or the words
`SNOCLO` and `CLRD`; nothing else is accepted. -/
theorem C37_runway_state :
    (∀ g : RwyStateGroup, g.WF → ∃ m, MetarRegExp.RUNWAY_STATE.match g.text = some m ∧
      RwyStateSays g (RunwayState.new m)) ∧
    ∀ s m, MetarRegExp.RUNWAY_STATE.match s = some m → 10 ∉ s →
      ∃ g : RwyStateGroup, g.WF ∧ s = g.text := by
  refine ⟨fun g hg => ?_, rwyState_reads.2⟩
  obtain ⟨m, x, h1, h2, h3⟩ := rwyState_reads.1 g hg
  cases h2
  exact ⟨m, h1, h3⟩

/-- C37. The runway state of a METAR is the one stated by the group decoded in it. -/
theorem C37_report (db : Database) (clock : Clock) (code : PyStr) (a : Args) (r : Metar)
    (c : List (PyStr × Nat)) (h : Metar.new db clock code a = .ok r)
    (hc : Decodes (Metar.handlers db (clock 2) a) (metarGroups r.body) c) :
    ReadAt c 26 rwyStateGrammar RunwayState.none r.runwayState := by
  obtain ⟨_, -, ho, hR, hn⟩ := Metar.new_decodes h hc
  exact rwyState_reads.ifOk.at hR.runwayState ho hn

/-- Groups for the theorems above. -/
example : (RwyStateGroup.mk (some ⟨py!"10", some .left⟩)
      (.state (some 50) (some 57) (some py!"35") (some py!"50"))).text = py!"R10L/293550" ∧
    (RwyStateGroup.mk none .snoclo).text = py!"R/SNOCLO" ∧
    (RwyStateGroup.mk (some ⟨py!"88", none⟩) .clrd).text = py!"R88/CLRD//" ∧
    depositMeans (some 50) = some py!"wet and water patches" ∧
    contMeans (some 57) = some py!"51%-100% of runway" ∧ contMeans (some 48) = none ∧
    depthMeans (some py!"35") = some py!"35 mm" ∧ fricMeans (some py!"05") = some py!"0.05" ∧
    fricMeans (some py!"92") = some py!"breaking action medium/poor" := by decide
example : (RwyStateGroup.mk (some ⟨py!"10", some .left⟩)
    (.state (some 50) (some 57) (some py!"35") none)).WF := by
  refine ⟨fun r hr => ?_, ?_, ?_, ?_, ?_⟩
  · cases hr; exact ⟨rfl, by decide⟩
  · intro d hd; cases hd; decide
  · intro d hd; cases hd; decide
  · intro d hd; cases hd; exact ⟨rfl, by decide⟩
  · intro d hd; cases hd

/-- A report with all of these groups. -/
example : (match Metar.new sampleDb sampleClock
      py!"METAR SKBO 151200Z 23015KT 0500 R07R/M0150V0300FTU R25/9999 FG 18/17 Q1012 W19/H015 R10L/293550" {} with
    | .ok r => decide (r.runwayRanges.list.map (·.name) = [some py!"07 right", some py!"25"] ∧
        r.runwayRanges.list.map (·.trend) = [some py!"increasing", none] ∧
        r.runwayRanges.list.map (·.high.isSome) = [true, false] ∧
        (r.runwayRanges.list.map (·.low))[1]? = some (some ⟨10000, false⟩) ∧
        r.seaState.height = some ⟨3 / 2, false⟩ ∧
        r.runwayState.friction = some py!"0.50")
    | .error _ => false) = true := by decide +kernel

end Verif.Props
