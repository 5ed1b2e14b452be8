import Verif.Model.MetarGroups
import Verif.Model.Regexps
import Verif.Model.Utils

/-
Model of the mixins shared by METAR, TAF and their change periods (wind, prevailing visibility,
weather, clouds, flight rules, CAVOK analysis, text buffer), of `Forecast` and of the METAR trend
periods.
-/

namespace Verif

/-- The attributes added by `StringAttributeMixin` (string_attribute.py 14-16), `MetarWindMixin`
(metar/wind.py 66-67), `MetarPrevailingMixin` (visibility.py 211-212), `MetarWeatherMixin`
(weather.py 135-136) and `MetarCloudMixin` (metar/cloud.py 9-10, base/cloud.py 195-196). -/
structure Core where
  string : PyStr := []
  wind : MetarWind := MetarWind.none
  prevailing : Visibility := Visibility.none
  weathers : GroupList Weather := GroupList.new 3
  clouds : GroupList Cloud := GroupList.new 4
deriving Repr

namespace Core

/-- `StringAttributeMixin.__str__` (string_attribute.py 18-19). -/
def str (c : Core) : PyStr := strip c.string

/-- `StringAttributeMixin._concatenate_string` (string_attribute.py 21-22). -/
def concat (c : Core) (text : PyStr) : Core := { c with string := c.string ++ (text ++ py!"\n") }

/-- `_handle_wind` (metar/wind.py 69-72). -/
def handleWind (m : Match) (c : Core) : Except Exc Core := do
  let w ← MetarWind.new m
  return { c with wind := w }.concat w.str

/-- `_handle_prevailing` (visibility.py 214-217). -/
def handlePrevailing (m : Match) (c : Core) : Except Exc Core := do
  let v ← Verif.prevailing m
  return { c with prevailing := v }.concat v.str

/-- `_handle_weather` (weather.py 138-142). -/
def handleWeather (m : Match) (c : Core) : Except Exc Core := do
  let w := Weather.new m
  let ws ← c.weathers.add w
  return { c with weathers := ws }.concat w.str

/-- `_handle_cloud` (metar/cloud.py 12-16). -/
def handleCloud (m : Match) (c : Core) : Except Exc Core := do
  let cl ← Cloud.fromMetar m
  let cs ← c.clouds.add cl
  return { c with clouds := cs }.concat cl.str

/-- `FlightRulesMixin.flight_rules` (flight_rules.py 40-66). -/
def flightRules (c : Core) : Option PyStr := Verif.flightRules c.prevailing.vis c.clouds.list

/-- The loop of `should_be_cavok` (should_be_cavok.py 44-54) over the stateful iterator. `isSame`
is the outcome of the identity test `c.cover is "indefinite ceiling"` when the texts are equal (it
depends on string interning). The fuel bounds the number of turns. -/
def cavokGo (isSame : Bool) : Nat → GroupList Cloud → Bool × GroupList Cloud
  | 0, g => (true, g)
  | f + 1, g =>
    match g.next with
    | (none, g') => (true, g')
    | (some c, g') =>
      if isSame ∧ c.cover = some py!"indefinite ceiling" then (false, g')
      else if c.type = some py!"cumulonimbus" ∨ c.type = some py!"towering cumulus" then (false, g')
      else
        match c.heightInFeet with
        | some h =>
          if h.lt (F64.lit 4999.99999999) then (false, g') else cavokGo isSame f g'
        | none => cavokGo isSame f g'

/-- `ShouldBeCavokMixin.should_be_cavok` (should_be_cavok.py 26-54): the result and the state of
the cloud list afterwards. -/
def shouldBeCavok (isSame : Bool) (c : Core) : Except Exc Bool × GroupList Cloud :=
  if c.weathers.list.length > 0 then (.ok false, c.clouds)
  else
    match ceiling c.clouds.list with
    | .error e => (.error e, c.clouds)
    | .ok true => (.ok false, c.clouds)
    | .ok false =>
      match c.prevailing.vis with
      | none => (.ok false, c.clouds)
      | some v =>
        if c.clouds.list.length = 0 then (.ok false, c.clouds)
        else if v.lt (F64.lit 10000) then (.ok false, c.clouds)
        else
          let (b, g) := cavokGo isSame (c.clouds.list.length + 1) c.clouds
          (.ok b, g)

end Core

/-- Lift a handler of the shared attributes to a larger state. -/
def liftCore {σ : Type} (get : σ → Core) (set : σ → Core → σ)
    (h : Match → Core → Except Exc Core) : Match → σ → Except Exc σ :=
  fun m s =>
    match h m (get s) with
    | .ok c => .ok (set s c)
    | .error e => .error e

/-- Result of `Forecast.as_dict` (weather_trend.py 57-66) and the lists after it: the two list
comprehensions run the stateful iterators. -/
def forecastDict (code : Option PyStr) (c : Core) : PyVal × Core :=
  let (ws, wl) := c.weathers.iter
  let (cs, cl) := c.clouds.iter
  (.dict (dupdate [(py!"wind", c.wind.dict), (py!"prevailing_visibility", c.prevailing.dictPrev),
    (py!"weathers", .list (ws.map Weather.dict)), (py!"clouds", .list (cs.map Cloud.dict)),
    (py!"flight_rules", .ofStr c.flightRules)] (groupDict code)),
   { c with weathers := wl, clouds := cl })

/-! ### METAR trend indicator (trend_indicator.py) -/

structure TrendIndicator where
  code : Option PyStr
  translation : Option PyStr
  init : Time
  end_ : Time
  from_ : Time
  until_ : Time
  at_ : Option Time
deriving DecidableEq, Repr

/-- `ChangeIndicator.__init__` (change_indicator.py 20-36) with or without a match. -/
def changeIndicatorO : Option Match → Except Exc (Option PyStr × Option PyStr)
  | none => .ok (none, none)
  | some m => changeIndicator m

/-- `MetarTrendIndicator.__init__` (trend_indicator.py 12-21) with `ChangeIndicator.__init__`
(change_indicator.py 20-36). -/
def TrendIndicator.new (m : Option Match) (time : DT) : Except Exc TrendIndicator := do
  let (code, tr) ← changeIndicatorO m
  let init := Time.ofDT time
  let e ← time.addHours 2
  let end_ := Time.ofDT e
  return ⟨code, tr, init, end_, init, end_, none⟩

/-- `ChangeIndicator.__str__` (change_indicator.py 38-42). -/
def translationText (tr : Option PyStr) : PyStr := if strTruthy tr then tr.getD [] else []

/-- `MetarTrendIndicator.__str__` (trend_indicator.py 23-30). -/
def TrendIndicator.str (t : TrendIndicator) : PyStr :=
  match t.at_ with
  | some a =>
    if a.truthy then translationText t.translation ++ py!" at " ++ a.str
    else if strTruthy t.translation then
      translationText t.translation ++ py!" from " ++ t.from_.str ++ py!" until " ++ t.until_.str
    else translationText t.translation
  | none =>
    if strTruthy t.translation then
      translationText t.translation ++ py!" from " ++ t.from_.str ++ py!" until " ++ t.until_.str
    else translationText t.translation

/-- `self._code += " " + match.string` (trend_indicator.py 34); `None + str` is a `TypeError`. -/
def TrendIndicator.extendCode (t : TrendIndicator) (s : PyStr) : Except Exc PyStr :=
  match t.code with
  | none => .error .type
  | some c => .ok (c ++ (py!" " ++ s))

/-- The instant a period group denotes (trend_indicator.py 46-56). -/
def TrendIndicator.periodTime (t : TrendIndicator) (middle : DT) (hour minute : Nat) :
    Except Exc DT :=
  if hour = t.init.time.hour then
    t.init.time.addMinutes ((minute : Int) - (t.init.time.minute : Int))
  else if hour = middle.hour then middle.addMinutes ((minute : Int) - (middle.minute : Int))
  else t.end_.time.addMinutes ((minute : Int) - (t.end_.time.minute : Int))

/-- `MetarTrendIndicator.add_period` (trend_indicator.py 32-63). -/
def TrendIndicator.addPeriod (t : TrendIndicator) (m : Match) : Except Exc TrendIndicator := do
  let code ← t.extendCode m.string
  let middle ← t.init.time.addHours 1
  let hour ← pyInt (m.group .hour)
  let minute ← pyInt (m.group .min)
  let time ← t.periodTime middle hour minute
  let x := Time.ofDT time (some m.string)
  if m.group .prefix = some py!"FM" then return { t with code := some code, from_ := x }
  else if m.group .prefix = some py!"TL" then return { t with code := some code, until_ := x }
  else return { t with code := some code, at_ := some x }

/-- `MetarTrendIndicator.as_dict` (trend_indicator.py 85-96). -/
def TrendIndicator.dict (t : TrendIndicator) : PyVal :=
  .dict (dupdate
    [(py!"forecast_period", .dict [(py!"init", .dict t.init.dict), (py!"end", .dict t.end_.dict)]),
     (py!"from_", .dict t.from_.dict), (py!"until", .dict t.until_.dict),
     (py!"at", match t.at_ with
        | some a => if a.truthy then .dict a.dict else .none
        | none => .none)]
    (dupdate [(py!"translation", .ofStr t.translation)] (groupDict t.code)))

/-! ### METAR change periods (weather_trend.py 69-129) -/

structure ChangePeriod where
  code : Option PyStr
  core : Core := {}
  time : DT
  indicator : TrendIndicator
  unparsed : List PyStr := []
deriving Repr

/-- `ChangePeriod._handle_trend_indicator` (weather_trend.py 83-86). -/
def ChangePeriod.handleTrendIndicator (m : Match) (p : ChangePeriod) : Except Exc ChangePeriod := do
  let t ← TrendIndicator.new (some m) p.time
  return { p with indicator := t, core := p.core.concat t.str }

/-- `ChangePeriod._handle_time_period` (weather_trend.py 93-99); the `print` to standard output is
not modelled. -/
def ChangePeriod.handleTimePeriod (m : Match) (p : ChangePeriod) : Except Exc ChangePeriod := do
  let old := p.indicator.str
  let t ← p.indicator.addPeriod m
  return { p with indicator := t, core := { p.core with string := replace p.core.string old t.str } }

def ChangePeriod.lift (h : Match → Core → Except Exc Core) :
    Match → ChangePeriod → Except Exc ChangePeriod :=
  liftCore (·.core) (fun p c => { p with core := c }) h

/-- The handlers of `ChangePeriod._parse` (weather_trend.py 102-115). -/
def ChangePeriod.handlers : List (Handler ChangePeriod) :=
  [⟨MetarRegExp.CHANGE_INDICATOR, ChangePeriod.handleTrendIndicator⟩,
   ⟨MetarRegExp.TREND_TIME_PERIOD, ChangePeriod.handleTimePeriod⟩,
   ⟨MetarRegExp.TREND_TIME_PERIOD, ChangePeriod.handleTimePeriod⟩,
   ⟨MetarRegExp.WIND, ChangePeriod.lift Core.handleWind⟩,
   ⟨MetarRegExp.VISIBILITY, ChangePeriod.lift Core.handlePrevailing⟩,
   ⟨MetarRegExp.WEATHER, ChangePeriod.lift Core.handleWeather⟩,
   ⟨MetarRegExp.WEATHER, ChangePeriod.lift Core.handleWeather⟩,
   ⟨MetarRegExp.WEATHER, ChangePeriod.lift Core.handleWeather⟩,
   ⟨MetarRegExp.CLOUD, ChangePeriod.lift Core.handleCloud⟩,
   ⟨MetarRegExp.CLOUD, ChangePeriod.lift Core.handleCloud⟩,
   ⟨MetarRegExp.CLOUD, ChangePeriod.lift Core.handleCloud⟩,
   ⟨MetarRegExp.CLOUD, ChangePeriod.lift Core.handleCloud⟩]

/-- `ChangePeriod.__init__` (weather_trend.py 72-81) and `_parse` (101-119). -/
def ChangePeriod.new (code : PyStr) (time : DT) : Except Exc ChangePeriod := do
  let code' := replace code py!"_" py!" "      -- `Group.__init__`, as `groupCode (some code)`
  let ind ← TrendIndicator.new none time
  let p : ChangePeriod := { code := some code', time := time, indicator := ind }
  let (p, un) ← parseSection ChangePeriod.handlers (sanitizeVisibility code') p
  return { p with unparsed := p.unparsed ++ un }

/-- `str(change_period)`: `Forecast.__str__` (weather_trend.py 49-50). -/
def ChangePeriod.str (p : ChangePeriod) : PyStr := p.core.str

/-- `MetarWeatherTrends.__str__` (weather_trend.py 128-129). -/
def trendsStr (g : GroupList ChangePeriod) : PyStr := join py!"\n" (g.list.map ChangePeriod.str)

/-- `change_period.as_dict()`: the dictionary and the object afterwards. -/
def ChangePeriod.dict (p : ChangePeriod) : PyVal × ChangePeriod :=
  let (d, c) := forecastDict p.code p.core
  (d, { p with core := c })

end Verif
