import Verif.Spec.RoundTrip
import Verif.Spec.Periods
import Verif.Spec.Sections

/-
TAFs as a person writes them: a record of the groups, and its text.
-/

namespace Verif.Spec

/-- The conditions forecast by a TAF, by a change of it or by a trend of a METAR. -/
structure Conditions where
  wind : Option WindGroup := none
  vis : Option VisGroup := none
  weathers : List WeatherGroup := []
  clouds : List Layer := []
deriving Repr

namespace Conditions

/-- The words after the visibility. -/
def sky (c : Conditions) : List PyStr := c.weathers.map WeatherGroup.text ++ c.clouds.map Layer.text

/-- All words. -/
def words (c : Conditions) : List PyStr :=
  c.wind.toList.map WindGroup.text ++ (c.vis.toList.flatMap VisGroup.words ++ c.sky)

/-- The groups are well-formed and not too many; the visibility is one that the library can read,
written without underscores. -/
structure WF (c : Conditions) : Prop where
  wind : ∀ w, c.wind = some w → w.WF
  vis : ∀ v, c.vis = some v → v.WF ∧ v.raises = none ∧ ∀ w ∈ v.words, 95 ∉ w
  weathers : c.weathers.length ≤ 3 ∧ ∀ w ∈ c.weathers, w.text ≠ []
  clouds : c.clouds.length ≤ 4 ∧ ∀ w ∈ c.clouds, w.WF

end Conditions

/-- What opens a change of a TAF. -/
inductive ChangeKind where
  | tempo
  | becmg
  /-- PROB40 or PROB30, with TEMPO or without. -/
  | prob (forty also : Bool)
  | fm (g : FmGroup)
deriving DecidableEq, Repr

def ChangeKind.words : ChangeKind → List PyStr
  | .tempo => [py!"TEMPO"]
  | .becmg => [py!"BECMG"]
  | .prob forty also => (if forty then py!"PROB40" else py!"PROB30") :: if also then [py!"TEMPO"] else []
  | .fm g => [g.text]

/-- The opening as one text. -/
def ChangeKind.text (k : ChangeKind) : PyStr := join [32] k.words

/-- FM and BECMG end the period of an FM change before them. -/
def ChangeKind.Ends : ChangeKind → Prop
  | .becmg | .fm _ => True
  | _ => False

/-- A change of a TAF. -/
structure TafChange where
  kind : ChangeKind
  valid : Option ValidGroup := none
  conds : Conditions := {}
deriving Repr

namespace TafChange

/-- The words after the opening. -/
def rest (c : TafChange) : List PyStr := c.valid.toList.map ValidGroup.text ++ c.conds.words

def words (c : TafChange) : List PyStr := c.kind.words ++ c.rest

/-- The opening and the period as the library shows them. -/
def indicatorText (c : TafChange) : PyStr :=
  match c.valid with
  | none => c.kind.text
  | some v => c.kind.text ++ 32 :: v.text

structure WF (c : TafChange) : Prop where
  fm : ∀ g, c.kind = .fm g → g.WF ∧ c.valid = none
  valid : ∀ v, c.valid = some v → v.WF
  conds : c.conds.WF
  wind : ∀ w, c.conds.wind = some w → w.Forecast
  /-- A probability with nothing after it would be joined to a TEMPO that follows. -/
  prob : ∀ forty, c.kind = .prob forty false → c.rest ≠ []
  /-- A visibility of two words is not at the end. -/
  goesOn : (∃ v, c.conds.vis = some v ∧ v.words.length = 2) → c.conds.sky ≠ []

end TafChange

/-- A TAF. -/
structure TafRecord where
  modifier : Option PyStr := none
  station : PyStr
  day : Nat
  hour : Nat
  minute : Nat
  missing : Bool := false
  valid : Option ValidGroup := none
  cancelled : Bool := false
  conds : Conditions := {}
  temps : List TafTempGroup := []
  changes : List TafChange := []
deriving Repr

namespace TafRecord

/-- The words before the conditions, without the first one. -/
def front (r : TafRecord) : List PyStr :=
  r.modifier.toList ++ (r.station :: timeText r.day r.hour r.minute ::
    ((if r.missing then [py!"NIL"] else []) ++ (r.valid.toList.map ValidGroup.text ++
      if r.cancelled then [py!"CNL"] else [])))

/-- The words of the body, without the first one. -/
def body (r : TafRecord) : List PyStr :=
  r.front ++ (r.conds.words ++ r.temps.map TafTempGroup.text)

def words (r : TafRecord) : List PyStr :=
  py!"TAF" :: (r.body ++ r.changes.flatMap TafChange.words)

/-- The records that are TAFs. -/
structure WF (r : TafRecord) : Prop where
  modifier : ∀ m, r.modifier = some m → m = py!"AMD" ∨ m = py!"COR"
  station : StationCode r.station
  /-- After AMD or COR a station FM.. would open a change. -/
  opens : r.modifier ≠ none → ¬ Opens tafWords r.station
  valid : ∀ v, r.valid = some v → v.WF
  conds : r.conds.WF
  wind : ∀ w, r.conds.wind = some w → w.Forecast
  vis : ∀ v, r.conds.vis = some v → tafVisGrammar.WF v
  /-- Without visibility a weather group that begins with M or U is taken for one. -/
  noVis : r.conds.vis = none → ∀ w, r.conds.weathers.head? = some w →
    w.text.head? ≠ some 77 ∧ w.text.head? ≠ some 85
  goesOn : (∃ v, r.conds.vis = some v ∧ v.words.length = 2) →
    r.conds.sky ++ r.temps.map TafTempGroup.text ≠ []
  temps : ∀ w ∈ r.temps, w.WF
  /-- At most two maxima and two minima. -/
  counts : (r.temps.filter (·.max)).length ≤ 2 ∧ (r.temps.filter (!·.max)).length ≤ 2
  changes : r.changes.length ≤ 8 ∧ ∀ c ∈ r.changes, c.WF
  /-- Five pairs PROB.. TEMPO are read as one opening. -/
  probs : (r.changes.filter fun c => c.kind.words.length = 2).length ≤ 5
  /-- Changes need a period of the report. -/
  period : r.changes ≠ [] → r.valid ≠ none

end TafRecord

end Verif.Spec
