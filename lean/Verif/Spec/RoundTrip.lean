import Verif.Spec.Wind
import Verif.Spec.Visibility
import Verif.Spec.CloudReport
import Verif.Spec.Weather
import Verif.Spec.Temperatures
import Verif.Spec.Runway
import Verif.Spec.Calendar

/-
Reports as a person writes them: a record of the groups, and its text.
-/

namespace Verif.Spec

variable {γ α : Type}

/-- An optional part of a record and the attribute of the report. -/
def Held (G : Grammar γ α) (d : α) : Option γ → α → Prop
  | none, x => x = d
  | some w, x => G.Says w x

/-- Four capital letters or digits, the first one a letter. -/
def StationCode (s : PyStr) : Prop :=
  s.length = 4 ∧ (∀ c ∈ s, (65 ≤ c ∧ c ≤ 90) ∨ (48 ≤ c ∧ c ≤ 57)) ∧
    ∀ c, s.head? = some c → 65 ≤ c ∧ c ≤ 90

/-- The day, hour and minute of a report. -/
def timeText (day hour minute : Nat) : PyStr :=
  padNat 2 day ++ padNat 2 hour ++ padNat 2 minute ++ py!"Z"

/-- The words of a visibility group: miles and a fraction are two of them. -/
def VisGroup.words : VisGroup → List PyStr
  | .range ⟨.exact, some ds, true, some (a, b), .sm⟩ => [ds, a :: py!"/" ++ b :: py!"SM"]
  | g => [g.text]

/-- A wind shear warning: of all runways or of one, whose name follows R or RWY. -/
inductive Shear where
  | all
  | runway (long : Bool) (r : RunwayCode)
deriving DecidableEq, Repr

def Shear.words : Shear → List PyStr
  | .all => [py!"WS", py!"ALL", py!"RWY"]
  | .runway long r => [py!"WS", py!"R" ++ (if long then py!"WY" else []) ++ r.text]

def Shear.group : Shear → ShearGroup
  | .all => ⟨true, none⟩
  | .runway _ r => ⟨false, some r⟩

def Shear.WF : Shear → Prop
  | .all => True
  | .runway _ r => r.WF

/-- The modifiers of a METAR. -/
def modifiers : List PyStr :=
  [py!"COR", py!"CORR", py!"AMD", py!"NIL", py!"TEST", py!"FINO", py!"AUTO"]

/-- The body of a METAR. -/
structure MetarRecord where
  speci : Bool := false
  station : PyStr
  day : Nat
  hour : Nat
  minute : Nat
  modifier : Option PyStr := none
  wind : Option WindGroup := none
  variation : Option VariationGroup := none
  vis : Option VisGroup := none
  minVis : Option VisGroup := none
  ranges : List RangeGroup := []
  weathers : List WeatherGroup := []
  clouds : List Layer := []
  temps : Option TempGroup := none
  pressures : List PressGroup := []
  recent : Option RecentGroup := none
  shears : List Shear := []
  sea : Option SeaGroup := none
  state : Option RwyStateGroup := none
deriving Repr

namespace MetarRecord

/-- The three words every METAR begins with. -/
def front (r : MetarRecord) : List PyStr :=
  [if r.speci then py!"SPECI" else py!"METAR", r.station, timeText r.day r.hour r.minute]

/-- The words before the visibility. -/
def early (r : MetarRecord) : List PyStr :=
  r.modifier.toList ++ (r.wind.toList.map WindGroup.text ++ r.variation.toList.map VariationGroup.text)

/-- The words between the visibility and the wind shear. -/
def middle (r : MetarRecord) : List PyStr :=
  r.minVis.toList.map VisGroup.text ++ (r.ranges.map RangeGroup.text ++
    (r.weathers.map WeatherGroup.text ++ (r.clouds.map Layer.text ++
      (r.temps.toList.map TempGroup.text ++ (r.pressures.map PressGroup.text ++
        r.recent.toList.map RecentGroup.text)))))

/-- The words after the wind shear. -/
def late (r : MetarRecord) : List PyStr :=
  r.sea.toList.map SeaGroup.text ++ r.state.toList.map RwyStateGroup.text

/-- The words after the visibility. -/
def rest (r : MetarRecord) : List PyStr :=
  r.middle ++ (r.shears.flatMap Shear.words ++ r.late)

/-- All words, in the order of the code. -/
def words (r : MetarRecord) : List PyStr :=
  r.front ++ (r.early ++ (r.vis.toList.flatMap VisGroup.words ++ r.rest))

/-- The records that are METARs. -/
structure WF (r : MetarRecord) : Prop where
  station : StationCode r.station
  /-- A word that begins with RMK begins the remarks. -/
  noRemark : ¬ py!"RMK" <+: r.station
  modifier : ∀ m, r.modifier = some m → m ∈ modifiers
  wind : ∀ w, r.wind = some w → w.WF
  variation : ∀ w, r.variation = some w → w.WF
  vis : ∀ v, r.vis = some v → v.WF ∧ v.raises = none
  minVis : ∀ v, r.minVis = some v → minVisGrammar.WF v ∧ v.raises = none ∧ r.vis ≠ none
  ranges : r.ranges.length ≤ 3 ∧ ∀ w ∈ r.ranges, w.WF
  weathers : r.weathers.length ≤ 3 ∧ ∀ w ∈ r.weathers, w.text ≠ []
  clouds : r.clouds.length ≤ 4 ∧ ∀ w ∈ r.clouds, w.WF
  temps : ∀ w, r.temps = some w → w.WF
  /-- A pressure without unit looks like a visibility unless temperatures precede it. -/
  pressures : r.pressures.length ≤ 2 ∧ ∀ w ∈ r.pressures, w.WF ∧ (w.Bare → r.temps ≠ none)
  recent : ∀ w, r.recent = some w → w.WF
  shears : r.shears.length ≤ 3 ∧ ∀ w ∈ r.shears, w.WF
  sea : ∀ w, r.sea = some w → w.WF
  state : ∀ w, r.state = some w → w.WF
  /-- A visibility of two words is not at the end. -/
  goesOn : (∃ v, r.vis = some v ∧ v.words.length = 2) → r.rest ≠ []

end MetarRecord

end Verif.Spec
