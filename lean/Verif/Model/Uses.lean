import Verif.Model.Taf

/-
The uses of a constructed report that change the object. `GroupList` is its own iterator
(group.py 63-73), so that every `next()`, and everything that loops over a list of groups, moves the
cursor of the list: `should_be_cavok` (should_be_cavok.py 44), `Forecast.as_dict`
(weather_trend.py 61-62) and therefore `as_dict` and `to_json` of reports. `str()` of a change of a
TAF rewrites its buffer (change_forecast.py 32-36). The other properties and methods of the library
(except `add` and the setters, by which a caller changes the data) leave the objects as they are.
-/

namespace Verif

/-- Uses of the attributes shared by reports and forecasts: a `next()` on `weathers` or `clouds`
(group.py 66-73) and `should_be_cavok()` (should_be_cavok.py 26-54). -/
inductive CoreUse where
  | nextWeather
  | nextCloud
  | cavok (isSame : Bool)
deriving DecidableEq, Repr

def Core.use (c : Core) : CoreUse → Core
  | .nextWeather => { c with weathers := c.weathers.next.2 }
  | .nextCloud => { c with clouds := c.clouds.next.2 }
  | .cavok isSame => { c with clouds := (c.shouldBeCavok isSame).2 }

/-- Uses of a trend or of a change: the above, `as_dict()` or `to_json()` (weather_trend.py 57-66,
group.py 43-45), and `str()`. -/
inductive ForecastUse where
  | core (u : CoreUse)
  | dict
  | str
deriving DecidableEq, Repr

def ChangePeriod.use (p : ChangePeriod) : ForecastUse → ChangePeriod
  | .core u => { p with core := p.core.use u }
  | .dict => p.dict.2
  | .str => p

def ChangeForecasted.use (x : ChangeForecasted) : ForecastUse → ChangeForecasted
  | .core u => { x with core := x.core.use u }
  | .dict => x.dict.2
  | .str => x.str.2

/-- Something done to the item with an index; nothing if there is none (an exception). -/
def GroupList.onItem {α : Type} (g : GroupList α) (i : Nat) (f : α → α) : GroupList α :=
  { g with list := g.list.modify i f }

/-- Something done to every item. -/
def GroupList.onAll {α : Type} (g : GroupList α) (f : α → α) : GroupList α :=
  { g with list := g.list.map f }

/-- Uses of a METAR: those of its own attributes, `next()` on its other lists, uses of a trend, and
`as_dict()` or `to_json()` (metar.py 287-310, report.py 99-101). -/
inductive MetarUse where
  | core (u : CoreUse)
  | nextRange
  | nextWindshear
  | nextTrend
  | trend (i : Nat) (u : ForecastUse)
  | dict
deriving DecidableEq, Repr

def Metar.use (r : Metar) : MetarUse → Metar
  | .core u => { r with core := r.core.use u }
  | .nextRange => { r with runwayRanges := r.runwayRanges.next.2 }
  | .nextWindshear => { r with windshears := r.windshears.next.2 }
  | .nextTrend => { r with weatherTrends := r.weatherTrends.next.2 }
  | .trend i u => { r with weatherTrends := r.weatherTrends.onItem i (·.use u) }
  | .dict => { r with weatherTrends := r.weatherTrends.onAll (·.dict.2) }

/-- A METAR after a sequence of uses. -/
def Metar.after (r : Metar) (us : List MetarUse) : Metar := us.foldl Metar.use r

/-- Uses of a TAF: those of its own attributes, `next()` on its other lists, uses of a change,
`str()` of the list of changes (change_forecast.py 76-77), and `as_dict()` or `to_json()` (taf.py
212-229). -/
inductive TafUse where
  | core (u : CoreUse)
  | nextMax
  | nextMin
  | nextChange
  | change (i : Nat) (u : ForecastUse)
  | changesStr
  | dict
deriving DecidableEq, Repr

def Taf.use (r : Taf) : TafUse → Taf
  | .core u => { r with core := r.core.use u }
  | .nextMax => { r with maxTemperatures := r.maxTemperatures.next.2 }
  | .nextMin => { r with minTemperatures := r.minTemperatures.next.2 }
  | .nextChange => { r with changes := r.changes.next.2 }
  | .change i u => { r with changes := r.changes.onItem i (·.use u) }
  | .changesStr => { r with changes := (changesStr r.changes).2 }
  | .dict => { r with changes := r.changes.onAll (·.dict.2) }

/-- A TAF after a sequence of uses. -/
def Taf.after (r : Taf) (us : List TafUse) : Taf := us.foldl Taf.use r

end Verif
