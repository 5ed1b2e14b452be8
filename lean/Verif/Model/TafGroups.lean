import Verif.Model.Forecast

/-
Model of `reports/models/taf/`.
-/

namespace Verif

/-- `t.replace(minute=n)`: `ValueError` out of range. -/
def DT.replaceMinute (t : DT) (n : Nat) : Except Exc DT :=
  if n ≤ 59 then .ok { t with minute := n } else .error .value
/-- `t.replace(hour=n)`: `ValueError` out of range. -/
def DT.replaceHour (t : DT) (n : Nat) : Except Exc DT :=
  if n ≤ 23 then .ok { t with hour := n } else .error .value

/-- The day of a time group (valid.py 49-57, taf/temperature.py 35-39): the day of `t`, or else the
next one. -/
def DT.onDay (t : DT) (day : Nat) : Except Exc DT := if day = t.day then pure t else t.addDays 1

/-! ### Valid period (taf/valid.py) -/

structure Valid where
  code : Option PyStr
  from_ : Time
  until_ : Time
deriving DecidableEq, Repr

/-- `Valid.from_taf` (valid.py 19-67). -/
def Valid.fromTaf (m : Option Match) (time : DT) : Except Exc Valid := do
  let time ← time.replaceMinute 0
  match m with
  | none =>
    let t ← time.addHours 1
    let u ← t.addHours 24
    return ⟨none, Time.ofDT t, Time.ofDT u⟩
  | some m =>
    let fmday ← pyInt (m.group .fmday)
    let fmhour ← pyInt (m.group .fmhour)
    let tlday ← pyInt (m.group .tlday)
    let tlhour ← pyInt (m.group .tlhour)
    let f ← time.onDay fmday
    let u ← time.onDay tlday
    let u ← if tlhour = 24 then u.addDays 1 else pure u
    let tlhour := if tlhour = 24 then 0 else tlhour
    let f ← f.replaceHour fmhour
    let u ← u.replaceHour tlhour
    return ⟨groupCode (some m.string), Time.ofDT f, Time.ofDT u⟩

/-- `Valid.__str__` (valid.py 69-70). -/
def Valid.str (v : Valid) : PyStr := py!"from " ++ v.from_.str ++ py!" until " ++ v.until_.str

/-- `Valid.duration` (valid.py 82-85), in minutes. -/
def Valid.duration (v : Valid) : Int := (v.until_.time.toMinutes : Int) - v.from_.time.toMinutes

/-- `Valid.as_dict` (valid.py 87-93). -/
def Valid.dict (v : Valid) : PyVal :=
  .dict (dupdate [(py!"from_", .dict v.from_.dict), (py!"until", .dict v.until_.dict)]
    (groupDict v.code))

/-! ### Missing, cancelled (taf/missing.py, taf/cancelled.py) -/

/-- `Missing` (missing.py 9-15): a `Modifier` and a flag. -/
structure Missing where
  mod : Modifier
  isMissing : Bool
deriving DecidableEq, Repr

/-- `Missing.__init__` (missing.py 9-15). -/
def Missing.new (code : Option PyStr) : Missing := ⟨Modifier.new code, code.isSome⟩

/-- `Missing.as_dict` (missing.py 22-27). -/
def Missing.dict (x : Missing) : PyVal :=
  .dict (dupdate [(py!"is_missing", .bool x.isMissing)] x.mod.dict)

/-- `Cancelled` (cancelled.py 11-18). -/
structure Cancelled where
  code : Option PyStr
  isCancelled : Bool
deriving DecidableEq, Repr

/-- `Cancelled.__init__` (cancelled.py 11-18). -/
def Cancelled.new (m : Option Match) : Cancelled :=
  match m with
  | none => ⟨none, false⟩
  | some m => ⟨groupCode (some m.string), true⟩

/-- `Cancelled.__str__` (cancelled.py 20-24). -/
def Cancelled.str (x : Cancelled) : PyStr := if x.isCancelled then py!"cancelled" else []
/-- `Cancelled.as_dict` (cancelled.py 31-36). -/
def Cancelled.dict (x : Cancelled) : PyVal :=
  .dict (dupdate [(py!"is_cancelled", .bool x.isCancelled)] (groupDict x.code))

/-! ### Temperatures (taf/temperature.py) -/

structure TafTemperature where
  code : Option PyStr
  value : Option F64
  time : Time
deriving DecidableEq, Repr

/-- The value of a temperature group (taf/temperature.py 26-29). -/
def tafTemperature (temp sign : Option PyStr) : Except Exc (Option F64) :=
  if strTruthy sign then temperature (some (py!"-" ++ fmtO temp)) else temperature temp

/-- `TafTemperature.__init__` with a match (taf/temperature.py 12-39). -/
def TafTemperature.new (m : Match) (time : DT) : Except Exc TafTemperature := do
  let time ← time.replaceMinute 0
  let v ← tafTemperature (m.group .temp) (m.group .sign)
  let day ← pyInt (m.group .day)
  let hour ← pyInt (m.group .hour)
  let time ← time.replaceHour hour
  let time ← time.onDay day
  return ⟨groupCode (some m.string), v, Time.ofDT time⟩

/-- `TafTemperature.__str__` (taf/temperature.py 41-45). -/
def TafTemperature.str (t : TafTemperature) : PyStr :=
  if t.value = none then temperatureStr t.value
  else temperatureStr t.value ++ py!" at " ++ t.time.str

/-- `TafTemperature.as_dict` (taf/temperature.py 52-56). -/
def TafTemperature.dict (t : TafTemperature) : PyVal :=
  .dict (dupdate (dupdate (temperatureDict t.value) (groupDict t.code)) t.time.dict)

/-! ### Change indicator (taf/change_indicator.py) -/

structure TafIndicator where
  code : Option PyStr
  translation : Option PyStr
  valid : Valid
deriving DecidableEq, Repr

/-- The loop `while day != time.day: time = time + timedelta(days=1)` (taf/change_indicator.py
28-29). Adding days ends in `OverflowError` after at most `maxOrdinal` turns, so `maxOrdinal`
turns are all there can be. -/
def findDay (day : Nat) : Nat → DT → Except Exc DT
  | 0, _ => .error .overflow
  | f + 1, t =>
    if day = t.day then .ok t
    else
      match t.addDays 1 with
      | .error e => .error e
      | .ok t' => findDay day f t'

/-- `TafChangeIndicator.__init__` (taf/change_indicator.py 13-36). -/
def TafIndicator.new (m : Option Match) (valid : Valid) : Except Exc TafIndicator :=
  match m with
  | none => .ok ⟨none, none, valid⟩
  | some m =>
    if startsWith m.string py!"FM" then do
      let day ← pyInt (m.group .day)
      let hour ← pyInt (m.group .hour)
      let minute ← pyInt (m.group .minute)
      let t ← findDay day (maxOrdinal + 1) valid.from_.time
      let t ← t.replaceHour hour
      let t ← t.replaceMinute minute
      let v : Valid := ⟨none, Time.ofDT t, valid.until_⟩
      return ⟨some m.string, some v.str, v⟩
    else do
      let (c, tr) ← changeIndicator m
      return ⟨c, tr, valid⟩

/-- `TafChangeIndicator.set_valid_period` (taf/change_indicator.py 38-51);
`None.startswith` is an `AttributeError`. -/
def TafIndicator.setValidPeriod (i : TafIndicator) (m : Match) (init : Time) :
    Except Exc TafIndicator := do
  let v ← Valid.fromTaf (some m) init.time
  match i.code with
  | none => throw Exc.attribute
  | some c =>
    if startsWith c py!"FM" then return { i with valid := v, translation := some v.str }
    else return ⟨some (c ++ (py!" " ++ fmtO v.code)), some (fmtO i.translation ++ py!" " ++ v.str), v⟩

/-- `TafChangeIndicator.reset_until_period` (taf/change_indicator.py 53-65). -/
def TafIndicator.resetUntil (i : TafIndicator) (until_ : Time) : Except Exc TafIndicator := do
  let u ← until_.time.addHours (-1)
  match i.code with
  | none => throw Exc.attribute
  | some c =>
    if startsWith c py!"FM" then
      let v : Valid := ⟨none, i.valid.from_, Time.ofDT u⟩
      return { i with valid := v, translation := some v.str }
    else return i

/-- `str(change_indicator)` (base/change_indicator.py 38-42). -/
def TafIndicator.str (i : TafIndicator) : PyStr := translationText i.translation

/-- `TafChangeIndicator.as_dict` (taf/change_indicator.py 72-77). -/
def TafIndicator.dict (i : TafIndicator) : PyVal :=
  .dict (dupdate [(py!"valid", i.valid.dict)]
    (dupdate [(py!"translation", .ofStr i.translation)] (groupDict i.code)))

/-! ### Changes forecasted (taf/change_forecast.py) -/

structure ChangeForecasted where
  code : PyStr
  core : Core := {}
  valid : Valid
  indicator : TafIndicator
  unparsed : List PyStr := []
deriving Repr

/-- `ChangeForecasted._handle_change_indicator` (change_forecast.py 38-39). -/
def ChangeForecasted.handleIndicator (m : Match) (c : ChangeForecasted) :
    Except Exc ChangeForecasted := do
  let i ← TafIndicator.new (some m) c.valid
  return { c with indicator := i }

/-- `ChangeForecasted._handle_valid_period` (change_forecast.py 46-47). -/
def ChangeForecasted.handleValid (m : Match) (c : ChangeForecasted) :
    Except Exc ChangeForecasted := do
  let i ← c.indicator.setValidPeriod m c.valid.from_
  return { c with indicator := i }

def ChangeForecasted.lift (h : Match → Core → Except Exc Core) :
    Match → ChangeForecasted → Except Exc ChangeForecasted :=
  liftCore (·.core) (fun p c => { p with core := c }) h

/-- The handlers of `ChangeForecasted._parse` (change_forecast.py 50-62). -/
def ChangeForecasted.handlers : List (Handler ChangeForecasted) :=
  [⟨TafRegExp.CHANGE_INDICATOR, ChangeForecasted.handleIndicator⟩,
   ⟨TafRegExp.VALID, ChangeForecasted.handleValid⟩,
   ⟨TafRegExp.WIND, ChangeForecasted.lift Core.handleWind⟩,
   ⟨MetarRegExp.VISIBILITY, ChangeForecasted.lift Core.handlePrevailing⟩,
   ⟨MetarRegExp.WEATHER, ChangeForecasted.lift Core.handleWeather⟩,
   ⟨MetarRegExp.WEATHER, ChangeForecasted.lift Core.handleWeather⟩,
   ⟨MetarRegExp.WEATHER, ChangeForecasted.lift Core.handleWeather⟩,
   ⟨MetarRegExp.CLOUD, ChangeForecasted.lift Core.handleCloud⟩,
   ⟨MetarRegExp.CLOUD, ChangeForecasted.lift Core.handleCloud⟩,
   ⟨MetarRegExp.CLOUD, ChangeForecasted.lift Core.handleCloud⟩,
   ⟨MetarRegExp.CLOUD, ChangeForecasted.lift Core.handleCloud⟩]

/-- `ChangeForecasted.__init__` (change_forecast.py 20-30) and `_parse` (49-67). The code is the one
stored by `Group.__init__`. -/
def ChangeForecasted.new (code : PyStr) (valid : Valid) : Except Exc ChangeForecasted := do
  let code' := replace code py!"_" py!" "
  let i ← TafIndicator.new none valid
  let c : ChangeForecasted := { code := code', valid := valid, indicator := i }
  let text := sanitizeVisibility (sanitizeChangeIndicator code')
  let (c, un) ← parseSection ChangeForecasted.handlers text c
  return { c with unparsed := c.unparsed ++ un }

/-- `ChangeForecasted.__str__` (change_forecast.py 32-36): the text, which also replaces the
buffer. -/
def ChangeForecasted.str (c : ChangeForecasted) : PyStr × ChangeForecasted :=
  let core := { c.core with string := [] }.concat c.indicator.str
  (core.string, { c with core := core })

/-- `TafChangesForecasted.__str__` (change_forecast.py 76-77): the text; the buffer of every change
is replaced on the way, as `ChangeForecasted.str` says. -/
def changesStr (g : GroupList ChangeForecasted) : PyStr × GroupList ChangeForecasted :=
  (join py!"\n" (g.list.map (·.str.1)), { g with list := g.list.map (·.str.2) })

/-- `change.as_dict()`: `Forecast.as_dict`. -/
def ChangeForecasted.dict (c : ChangeForecasted) : PyVal × ChangeForecasted :=
  let (d, core) := forecastDict (some c.code) c.core
  (d, { c with core := core })

/-- The loop of `TafChangesForecasted.add` (change_forecast.py 85-103): `rest` is the remaining
list, last element first; the result is the remaining list (still last first) and `temp_changes`. -/
def addChangeGo (until_ : Time) : List ChangeForecasted → ChangeForecasted →
    List ChangeForecasted → Except Exc (List ChangeForecasted × List ChangeForecasted)
  | rest, last, temp =>
    match last.indicator.code with
    | none => .error .attribute
    | some c =>
      if startsWith c py!"PROB" ∨ startsWith c py!"TEMPO" then
        match rest with
        | [] => .ok ([], temp ++ [last])
        | l :: rest' => addChangeGo until_ rest' l (temp ++ [last])
      else if startsWith c py!"FM" then
        match last.indicator.resetUntil until_ with
        | .error e => .error e
        | .ok i => .ok (rest, temp ++ [{ last with indicator := i }])
      else .ok (rest, temp ++ [last])

/-- Adding several items one after the other (change_forecast.py 106-107). -/
def addAll {α : Type} (g : GroupList α) : List α → Except Exc (GroupList α)
  | [] => .ok g
  | a :: as =>
    match g.add a with
    | .error e => .error e
    | .ok g' => addAll g' as

/-- `TafChangesForecasted.add` (change_forecast.py 79-109). -/
def addChange (g : GroupList ChangeForecasted) (new : ChangeForecasted) :
    Except Exc (GroupList ChangeForecasted) :=
  match g.list.reverse with
  | [] => g.add new
  | last :: rest =>
    if startsWith new.code py!"FM" ∨ startsWith new.code py!"BECMG" then
      match addChangeGo new.indicator.valid.from_ rest last [] with
      | .error e => .error e
      | .ok (rest', temp) =>
        match addAll { g with list := rest'.reverse } temp.reverse with
        | .error e => .error e
        | .ok g' => g'.add new
    else g.add new

end Verif
