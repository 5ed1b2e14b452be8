import Verif.Spec.TafRecord

/-
The trends of a METAR as a person writes them.
-/

namespace Verif.Spec

/-- What opens a trend. -/
inductive TrendKind where
  | nosig | tempo | becmg
deriving DecidableEq, Repr

def TrendKind.word : TrendKind → PyStr
  | .nosig => py!"NOSIG"
  | .tempo => py!"TEMPO"
  | .becmg => py!"BECMG"

/-- What the opening means. -/
def TrendKind.means : TrendKind → PyStr
  | .nosig => py!"no significant changes"
  | .tempo => py!"temporary"
  | .becmg => py!"becoming"

/-- A trend: its opening, its periods and the conditions expected. -/
structure TrendRecord where
  kind : TrendKind
  periods : List PeriodGroup := []
  conds : Conditions := {}
deriving Repr

namespace TrendRecord

/-- The words after the opening. -/
def rest (w : TrendRecord) : List PyStr := w.periods.map PeriodGroup.text ++ w.conds.words

def words (w : TrendRecord) : List PyStr := w.kind.word :: w.rest

/-- The groups are well-formed and not too many, and the periods lie in the two hours of the
trends of a report issued at `t`. -/
structure WF (w : TrendRecord) (t : DT) : Prop where
  periods : w.periods.length ≤ 2 ∧ ∀ p ∈ w.periods, p.WF ∧ ∃ u, p.Within t u
  conds : w.conds.WF
  /-- A visibility of two words is not at the end. -/
  goesOn : (∃ v, w.conds.vis = some v ∧ v.words.length = 2) → w.conds.sky ≠ []

/-- The last period of a kind. -/
def last (w : TrendRecord) (k : PeriodKind) : Option PeriodGroup :=
  (w.periods.filter fun p => p.kind = k).getLast?

end TrendRecord

/-- At most two trends; the second is no NOSIG and not bare. -/
structure TrendsWF (ws : List TrendRecord) (t : DT) : Prop where
  each : ∀ w ∈ ws, w.WF t
  count : ws.length ≤ 2
  second : ∀ w ∈ ws.tail, w.kind ≠ .nosig ∧ w.rest ≠ []

/-- The trend decoded from a report issued at `t` says what the record states, and nothing else. -/
structure TrendSaid (t : DT) (w : TrendRecord) (p : ChangePeriod) : Prop where
  code : p.code = some (join [32] w.words)
  opening : p.indicator.code = some (join [32] (w.kind.word :: w.periods.map PeriodGroup.text))
  means : p.indicator.translation = some w.kind.means
  init : p.indicator.init.time = t
  end_ : After t 120 p.indicator.end_.time
  fromCode : p.indicator.from_.code = (w.last .from_).map PeriodGroup.text
  from_ : match w.last .from_ with
    | none => p.indicator.from_.time = t
    | some g => g.Within t p.indicator.from_.time
  untilCode : p.indicator.until_.code = (w.last .until_).map PeriodGroup.text
  until_ : match w.last .until_ with
    | none => After t 120 p.indicator.until_.time
    | some g => g.Within t p.indicator.until_.time
  at_ : match w.last .at_ with
    | none => p.indicator.at_ = none
    | some g => ∃ x, p.indicator.at_ = some x ∧ x.code = some g.text ∧ g.Within t x.time
  wind : Held windGrammar MetarWind.none w.conds.wind p.core.wind
  vis : Held visGrammar Visibility.none w.conds.vis p.core.prevailing
  weathers : Each weatherGrammar.Says w.conds.weathers p.core.weathers.list
  clouds : Each cloudGrammar.Says w.conds.clouds p.core.clouds.list
  unparsed : p.unparsed = []

end Verif.Spec
