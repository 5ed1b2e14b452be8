import Verif.Model.Base

/-
Model of the groups in `reports/models/metar/` (all but the weather trends).
-/

namespace Verif

/-- Truth value of an optional string. -/
def strTruthy : Option PyStr → Bool
  | none => false
  | some s => s ≠ []

/-! ### Wind (metar/wind.py) -/

structure MetarWind where
  code : Option PyStr
  direction : Direction
  speed : Option F64
  gust : Option F64
deriving DecidableEq, Repr

/-- `MetarWind(None)` (metar/wind.py 12-16). -/
def MetarWind.none : MetarWind := ⟨Option.none, ⟨Option.none, false⟩, Option.none, Option.none⟩

/-- `MetarWind.__init__` with a match (metar/wind.py 12-29). The speed and gust texts are either the
captured groups or, for MPS, the results of `_mps2kt`. -/
def MetarWind.new (m : Match) : Except Exc MetarWind := do
  let spd := m.group .speed
  let gst := m.group .gust
  let mps : Bool := m.group .units = some py!"MPS"
  let spd := if mps then some (mps2kt spd) else spd
  let gst := if mps then some (mps2kt gst) else gst
  let direction ← Direction.new (m.group .dir)
  let speed ← Verif.speed spd
  let gust ← Verif.speed gst
  return ⟨groupCode (some m.string), direction, speed, gust⟩

/-- `MetarWind.__str__` (metar/wind.py 31-34). -/
def MetarWind.str (w : MetarWind) : PyStr :=
  windStr w.direction w.speed ++
    (if truthyO w.gust then py!" gust of " ++ speedStr w.gust else [])

/-- `MetarWind.as_dict` (metar/wind.py 56-60) with `Wind.as_dict` (base/wind.py 271-275). -/
def MetarWind.dict (w : MetarWind) : PyVal :=
  .dict (dupdate (dupdate [(py!"direction", w.direction.dict), (py!"speed", speedDict w.speed)]
    [(py!"gust", speedDict w.gust)]) (groupDict w.code))

/-! ### Wind variation (metar/wind_variation.py) -/

structure WindVariation where
  code : Option PyStr
  from_ : Direction
  to : Direction
deriving DecidableEq, Repr

/-- `MetarWindVariation(None)` (wind_variation.py 13-17). -/
def WindVariation.none : WindVariation := ⟨Option.none, ⟨Option.none, false⟩, ⟨Option.none, false⟩⟩

/-- `MetarWindVariation.__init__` (wind_variation.py 18-22). -/
def WindVariation.new (m : Match) : Except Exc WindVariation := do
  let a ← Direction.new (m.group .from_)
  let b ← Direction.new (m.group .to)
  return ⟨groupCode (some m.string), a, b⟩

/-- `MetarWindVariation.__str__` (wind_variation.py 24-33). -/
def WindVariation.str (w : WindVariation) : PyStr :=
  if w.from_.value = Option.none then []
  else py!"from " ++ fmtO w.from_.cardinal ++ py!" (" ++ w.from_.str ++ py!") to " ++
    fmtO w.to.cardinal ++ py!" (" ++ w.to.str ++ py!")"

/-- `MetarWindVariation.as_dict` (wind_variation.py 75-81). -/
def WindVariation.dict (w : WindVariation) : PyVal :=
  .dict (dupdate [(py!"from_", w.from_.dict), (py!"to", w.to.dict)] (groupDict w.code))

/-! ### Visibility (metar/visibility.py) -/

/-- `VisibilityWithDirection` (visibility.py 9-97) with the `cavok` flag of the prevailing
visibility (always `False` for the minimum visibility, which has no such attribute). -/
structure Visibility where
  code : Option PyStr
  vis : Option F64
  direction : Direction
  cavok : Bool := false
deriving DecidableEq, Repr

/-- `MetarPrevailingVisibility(None)` / `MetarMinimumVisibility(None)` (visibility.py 116, 153). -/
def Visibility.none : Visibility := ⟨Option.none, Option.none, ⟨Option.none, false⟩, false⟩

/-- The fraction part of `_from_sea_miles` (visibility.py 169-176): `int / int` is correctly
rounded. -/
def fractionOf (fraction : Option PyStr) : Except Exc F64 :=
  if strTruthy fraction then do
    let items := splitC 47 (fraction.getD [])
    let a ← pyInt items[0]?
    let b ← pyInt items[1]?
    if b = 0 then throw Exc.zeroDiv
    pure (F64.lit (mkRat a b))
  else pure (F64.lit 0)

/-- The integer part of `_from_sea_miles` (visibility.py 178-180). -/
def addInteger (fr : F64) (integer : Option PyStr) : Except Exc F64 :=
  if strTruthy integer then do
    let i ← pyFloat integer
    pure (fr.add i)
  else pure fr

/-- `Visibility._from_sea_miles` (visibility.py 161-182). -/
def fromSeaMiles (integer fraction : Option PyStr) : Except Exc (Option F64) := do
  let fr ← fractionOf fraction
  let vis ← addInteger fr integer
  return distance (some (floatRepr ((vis.mul Conv.SMI_TO_KM).mul Conv.KM_TO_M)))

/-- The visibility of `MetarPrevailingVisibility.__init__` (visibility.py 134-143). -/
def prevailingSize (vis integer fraction units : Option PyStr) : Except Exc (Option F64) :=
  -- 134-135 (and 13: `Distance(None)` to begin with)
  let v : Option F64 :=
    if strTruthy vis ∨ units = some py!"M" then distance vis else distance Option.none
  -- 137-143; the two tests on the units exclude each other
  if strTruthy integer ∨ strTruthy fraction then
    if units = some py!"SM" then fromSeaMiles integer fraction
    else if units = some py!"KM" then do
      let n ← pyInt integer
      return distance (some (padNat 4 (n * 1000)))
    else return v
  else return v

/-- The direction of a visibility group (visibility.py 55, 113-114, 145-146). -/
def visDirection (dir : Option PyStr) : Except Exc Direction :=
  if strTruthy dir then Direction.fromCardinal (dir.getD []) else Direction.new Option.none

/-- `MetarPrevailingVisibility.__init__` with a match (visibility.py 125-151). -/
def prevailing (m : Match) : Except Exc Visibility := do
  let v ← prevailingSize (m.group .vis) (m.group .integer) (m.group .fraction) (m.group .units)
  let d ← visDirection (m.group .dir)
  -- 148-151
  if strTruthy (m.group .cavok) then
    return ⟨groupCode (some m.string), distance (some py!"9999"), d, true⟩
  else return ⟨groupCode (some m.string), v, d, false⟩

/-- `MetarMinimumVisibility.__init__` with a match (visibility.py 104-114). -/
def minimumVisibility (m : Match) : Except Exc Visibility := do
  let vis := m.group .vis
  let v : Option F64 := if strTruthy vis then distance vis else distance Option.none
  let d ← visDirection (m.group .dir)
  return ⟨groupCode (some m.string), v, d, false⟩

/-- `Visibility.__str__` (visibility.py 17-21), `VisibilityWithDirection.__str__` (59-69),
`MetarPrevailingVisibility.__str__` (155-159). -/
def Visibility.str (v : Visibility) : PyStr :=
  if v.cavok then py!"Ceiling and Visibility OK"
  else
    let base : PyStr :=
      match inKilometers v.vis with
      | some x => fmt1 x ++ py!" km"
      | Option.none => distanceStr v.vis
    if truthyO v.direction.value then
      base ++ py!" to " ++ fmtO v.direction.cardinal ++ py!" (" ++ v.direction.str ++ py!")"
    else base

/-- `VisibilityWithDirection.as_dict` (visibility.py 91-96) with `Visibility.as_dict` (43-48). -/
def Visibility.dictMin (v : Visibility) : List (PyStr × PyVal) :=
  dupdate [(py!"direction", v.direction.dict)]
    (dupdate [(py!"visibility", distanceDict v.vis)] (groupDict v.code))

/-- `MetarPrevailingVisibility.as_dict` (visibility.py 202-205). -/
def Visibility.dictPrev (v : Visibility) : PyVal :=
  .dict (dupdate v.dictMin [(py!"cavok", .bool v.cavok)])

/-! ### Runway visual range (metar/runway_range.py) -/

/-- `NAMES` (runway_range.py 9-13). -/
def rwyNames : List (PyStr × PyStr) :=
  [(py!"R", py!"right"), (py!"L", py!"left"), (py!"C", py!"center")]
/-- `RVR_LIMITS` (runway_range.py 15-18). -/
def rvrLimits : List (PyStr × PyStr) := [(py!"M", py!"below of"), (py!"P", py!"above of")]
/-- `TRENDS` (runway_range.py 20-24). -/
def rvrTrends : List (PyStr × PyStr) :=
  [(py!"N", py!"no change"), (py!"U", py!"increasing"), (py!"D", py!"decreasing")]

/-- `set_runway_name` (runway_range.py 27-43). -/
def setRunwayName : Option PyStr → Option PyStr
  | none => none
  | some code =>
    if code.length = 3 then
      let ch : PyStr := code.drop 2
      some (replace code ch (py!" " ++ fmtO (dget rwyNames ch)))
    else if code = py!"88" then some py!"all runways"
    else if code = py!"99" then some py!"repeated"
    else some code

structure RunwayRange where
  code : Option PyStr
  name : Option PyStr
  rvrLow : Option PyStr
  rvrHigh : Option PyStr
  trend : Option PyStr
  low : Option F64
  high : Option F64
deriving DecidableEq, Repr

/-- `MetarRunwayRange._set_range` (runway_range.py 74-84). -/
def setRange (code units : Option PyStr) : Except Exc (Option F64) :=
  match code with
  | none => .ok (distance none)
  | some c =>
    if units = some py!"FT" then do
      let x ← pyFloat (some c)
      return distance (some (floatRepr (x.mul Conv.FT_TO_M)))
    else .ok (distance (some c))

/-- `MetarRunwayRange.__init__` with a match (runway_range.py 59-72). -/
def RunwayRange.new (m : Match) : Except Exc RunwayRange := do
  let units := m.group .units
  let low ← setRange (m.group .low) units
  let high ← setRange (m.group .high) units
  return ⟨groupCode (some m.string), setRunwayName (m.group .name),
    dgetO rvrLimits (m.group .rvrlow), dgetO rvrLimits (m.group .rvrhigh),
    dgetO rvrTrends (m.group .trend), low, high⟩

/-- `MetarRunwayRange._range2str` (runway_range.py 86-94). -/
def range2str (v : Option F64) (rvr : Option PyStr) : PyStr :=
  if v = none then []
  else if strTruthy rvr then fmtO rvr ++ py!" " ++ distanceStr v
  else distanceStr v

/-- `MetarRunwayRange.__str__` (runway_range.py 96-105). -/
def RunwayRange.str (r : RunwayRange) : PyStr :=
  if r.low = none then []
  else py!"runway " ++ fmtO r.name ++ py!" " ++ range2str r.low r.rvrLow ++
    (if truthyO r.high then py!" varying to " ++ range2str r.high r.rvrHigh else []) ++
    (if strTruthy r.trend then py!", " ++ fmtO r.trend else [])

/-- `MetarRunwayRange.as_dict` (runway_range.py 167-177). -/
def RunwayRange.dict (r : RunwayRange) : PyVal :=
  .dict (dupdate [(py!"name", .ofStr r.name), (py!"rvr_low", .ofStr r.rvrLow),
    (py!"low_range", distanceDict r.low), (py!"rvr_high", .ofStr r.rvrHigh),
    (py!"high_range", distanceDict r.high), (py!"trend", .ofStr r.trend)] (groupDict r.code))

/-! ### Weather (metar/weather.py) -/

/-- `INTENSITY` (weather.py 8-14). -/
def intensityTable : List (PyStr × PyStr) :=
  [(py!"-", py!"light"), (py!"+", py!"heavy"), (py!"-VC", py!"nearby light"),
   (py!"+VC", py!"nearby heavy"), (py!"VC", py!"nearby")]
/-- `DESCRIPTION` (weather.py 16-25). -/
def descriptionTable : List (PyStr × PyStr) :=
  [(py!"MI", py!"shallow"), (py!"PR", py!"partial"), (py!"BC", py!"patches of"),
   (py!"DR", py!"low drifting"), (py!"BL", py!"blowing"), (py!"SH", py!"showers"),
   (py!"TS", py!"thunderstorm"), (py!"FZ", py!"freezing")]
/-- `PRECIPITATION` (weather.py 27-38). -/
def precipitationTable : List (PyStr × PyStr) :=
  [(py!"DZ", py!"drizzle"), (py!"RA", py!"rain"), (py!"SN", py!"snow"),
   (py!"SG", py!"snow grains"), (py!"IC", py!"ice crystals"), (py!"PL", py!"ice pellets"),
   (py!"GR", py!"hail"), (py!"GS", py!"snow pellets"), (py!"UP", py!"unknown precipitation"),
   (py!"//", [])]
/-- `OBSCURATION` (weather.py 40-49). -/
def obscurationTable : List (PyStr × PyStr) :=
  [(py!"BR", py!"mist"), (py!"FG", py!"fog"), (py!"FU", py!"smoke"), (py!"VA", py!"volcanic ash"),
   (py!"DU", py!"dust"), (py!"SA", py!"sand"), (py!"HZ", py!"haze"), (py!"PY", py!"spray")]
/-- `OTHER` (weather.py 51-58). -/
def otherTable : List (PyStr × PyStr) :=
  [(py!"PO", py!"sand whirls"), (py!"SQ", py!"squalls"), (py!"FC", py!"funnel cloud"),
   (py!"SS", py!"sandstorm"), (py!"DS", py!"dust storm"), (py!"NSW", py!"nil significant weather")]

structure Weather where
  code : Option PyStr
  intensity : Option PyStr
  description : Option PyStr
  precipitation : Option PyStr
  obscuration : Option PyStr
  other : Option PyStr
deriving DecidableEq, Repr

/-- `MetarWeather.__init__` with a match (weather.py 73-80). -/
def Weather.new (m : Match) : Weather :=
  ⟨groupCode (some m.string), dgetO intensityTable (m.group .int),
    dgetO descriptionTable (m.group .desc), dgetO precipitationTable (m.group .prec),
    dgetO obscurationTable (m.group .obsc), dgetO otherTable (m.group .other)⟩

/-- The common part of the `__str__` of weather groups: the items joined by blanks, `None` removed,
blanks squeezed (weather.py 83-93, recent_weather.py 29-38). -/
def weatherText (items : List (Option PyStr)) : PyStr :=
  strip (spaces2RE.sub py!" " (replace (join py!" " (items.map fmtO)) py!"None" []) 0)

/-- `MetarWeather.__str__` (weather.py 82-93). -/
def Weather.str (w : Weather) : PyStr :=
  weatherText [w.intensity, w.description, w.precipitation, w.obscuration, w.other]

/-- `MetarWeather.as_dict` (weather.py 120-129). -/
def Weather.dict (w : Weather) : PyVal :=
  .dict (dupdate [(py!"intensity", .ofStr w.intensity), (py!"description", .ofStr w.description),
    (py!"precipitation", .ofStr w.precipitation), (py!"obscuration", .ofStr w.obscuration),
    (py!"other", .ofStr w.other)] (groupDict w.code))

/-! ### Temperatures (metar/temperatures.py) -/

structure Temperatures where
  code : Option PyStr
  temperature : Option F64
  dewpoint : Option F64
deriving DecidableEq, Repr

/-- `MetarTemperatures(None)` (temperatures.py 12-16). -/
def Temperatures.none : Temperatures := ⟨Option.none, Option.none, Option.none⟩

/-- `MetarTemperatures._set_temperature` (temperatures.py 38-43). -/
def setTemperature (code sign : Option PyStr) : Except Exc (Option F64) :=
  if sign = some py!"M" ∨ sign = some py!"-" then temperature (some (py!"-" ++ fmtO code))
  else temperature code

/-- `MetarTemperatures.__init__` with a match (temperatures.py 17-26). -/
def Temperatures.new (m : Match) : Except Exc Temperatures := do
  let t ← setTemperature (m.group .temp) (m.group .tsign)
  let d ← setTemperature (m.group .dewpt) (m.group .dsign)
  return ⟨groupCode (some m.string), t, d⟩

/-- `MetarTemperatures.__str__` (temperatures.py 28-36). -/
def Temperatures.str (t : Temperatures) : PyStr :=
  if t.temperature = Option.none ∧ t.dewpoint = Option.none then []
  else if t.temperature = Option.none ∧ truthyO t.dewpoint then
    py!"no temperature | dewpoint: " ++ temperatureStr t.dewpoint
  else if t.temperature ≠ Option.none ∧ t.dewpoint = Option.none then
    py!"temperature: " ++ temperatureStr t.temperature ++ py!" | no dewpoint"
  else py!"temperature: " ++ temperatureStr t.temperature ++ py!" | dewpoint: " ++
    temperatureStr t.dewpoint

/-- `MetarTemperatures.as_dict` (temperatures.py 85-91). -/
def Temperatures.dict (t : Temperatures) : PyVal :=
  .dict (dupdate [(py!"temperature", .dict (temperatureDict t.temperature)),
    (py!"dewpoint", .dict (temperatureDict t.dewpoint))] (groupDict t.code))

/-! ### Pressure (metar/pressure.py) -/

structure MetarPressure where
  code : Option PyStr
  value : Option F64
deriving DecidableEq, Repr

/-- `MetarPressure(None)` (metar/pressure.py 13-15). -/
def MetarPressure.none : MetarPressure := ⟨Option.none, Option.none⟩

/-- `MetarPressure.__init__` with a match (metar/pressure.py 16-37). -/
def MetarPressure.new (m : Match) : Except Exc MetarPressure := do
  let units := m.group .units
  let press := m.group .press
  let unit2 := m.group .units2
  let text : Option PyStr ←
    if press = some py!"////" then pure press
    else do
      let p ← pyFloat press
      let p : F64 :=
        if units = some py!"A" ∨ unit2 = some py!"INS" then
          (p.div (F64.ofNat 100)).mul Conv.INHG_TO_HPA
        else if units = some py!"Q" ∨ units = some py!"QNH" then p.mul (F64.ofNat 1)
        else if (F64.ofNat 2500).lt p then p.mul Conv.INHG_TO_HPA
        else p.mul Conv.MBAR_TO_HPA
      pure (some (fmtF 10 p))
  return ⟨groupCode (some m.string), pressure text⟩

/-- `str(metar.pressure)`: `Pressure.__str__`. -/
def MetarPressure.str (p : MetarPressure) : PyStr := pressureStr p.value
/-- `metar.pressure.as_dict()`: `Pressure.as_dict` (no `code` entry). -/
def MetarPressure.dict (p : MetarPressure) : PyVal := .dict (pressureDict p.value)

/-! ### Recent weather (metar/recent_weather.py) -/

structure RecentWeather where
  code : Option PyStr
  description : Option PyStr
  obscuration : Option PyStr
  other : Option PyStr
  precipitation : Option PyStr
deriving DecidableEq, Repr

/-- `MetarRecentWeather(None)` (recent_weather.py 13-19). -/
def RecentWeather.none : RecentWeather :=
  ⟨Option.none, Option.none, Option.none, Option.none, Option.none⟩

/-- `MetarRecentWeather.__init__` with a match (recent_weather.py 20-26). -/
def RecentWeather.new (m : Match) : RecentWeather :=
  ⟨groupCode (some m.string), dgetO descriptionTable (m.group .desc),
    dgetO obscurationTable (m.group .obsc), dgetO otherTable (m.group .other),
    dgetO precipitationTable (m.group .prec)⟩

/-- `MetarRecentWeather.__str__` (recent_weather.py 28-38). -/
def RecentWeather.str (w : RecentWeather) : PyStr :=
  weatherText [w.description, w.precipitation, w.obscuration, w.other]

/-- `MetarRecentWeather.as_dict` (recent_weather.py 60-68). -/
def RecentWeather.dict (w : RecentWeather) : PyVal :=
  .dict (dupdate [(py!"description", .ofStr w.description), (py!"obscuration", .ofStr w.obscuration),
    (py!"other", .ofStr w.other), (py!"precipitation", .ofStr w.precipitation)] (groupDict w.code))

/-! ### Windshear (metar/windshear.py) -/

structure Windshear where
  code : Option PyStr
  all : Option PyStr
  name : Option PyStr
deriving DecidableEq, Repr

/-- `MetarWindshearRunway.__init__` with a match (windshear.py 18-28). -/
def Windshear.new (m : Match) : Windshear :=
  let name := m.group .name
  let name : Option PyStr :=
    match name with
    | none => none
    | some n =>
      if n.length = 2 then some n
      else if n.length = 3 then setRunwayName (some n)
      else none
  ⟨groupCode (some (replace m.string py!"_" py!" ")), m.group .all, name⟩

/-- `MetarWindshearRunway.all_` (windshear.py 39-45). -/
def Windshear.all_ (w : Windshear) : Bool := strTruthy w.all

/-- `MetarWindshearRunway.__str__` (windshear.py 30-37). -/
def Windshear.str (w : Windshear) : PyStr :=
  if strTruthy w.name then w.name.getD []
  else if strTruthy w.all then py!"all"
  else []

/-- `MetarWindshearRunway.as_dict` (windshear.py 52-58). -/
def Windshear.dict (w : Windshear) : PyVal :=
  .dict (dupdate [(py!"all", .bool w.all_), (py!"name", .ofStr w.name)] (groupDict w.code))

/-- `MetarWindshearList.all_runways` (windshear.py 81-87). -/
def allRunways (l : List Windshear) : Bool :=
  match l with
  | [w] => w.all_
  | _ => false

/-- `MetarWindshearList.names` (windshear.py 73-79). -/
def windshearNames (l : List Windshear) : List (Option PyStr) :=
  if allRunways l then [] else l.map (·.name)

/-- `MetarWindshearList.__str__` (windshear.py 67-71). -/
def windshearsStr (g : GroupList Windshear) : PyStr :=
  if allRunways g.list then py!"all runways" else g.str Windshear.str

/-! ### Sea state (metar/sea_state.py) -/

/-- `SEA_STATE` (sea_state.py 10-21). -/
def seaStateTable : List (PyStr × PyStr) :=
  [(py!"0", py!"calm (glassy)"), (py!"1", py!"calm (rippled)"), (py!"2", py!"smooth (wavelets)"),
   (py!"3", py!"slight"), (py!"4", py!"moderate"), (py!"5", py!"rough"), (py!"6", py!"very rough"),
   (py!"7", py!"high"), (py!"8", py!"very high"), (py!"9", py!"phenomenal")]

structure SeaState where
  code : Option PyStr
  temperature : Option F64
  state : Option PyStr
  height : Option F64
deriving DecidableEq, Repr

/-- `MetarSeaState(None)` (sea_state.py 28-33). -/
def SeaState.none : SeaState := ⟨Option.none, Option.none, Option.none, Option.none⟩

/-- The temperature of a sea state group (sea_state.py 42-45). -/
def seaTemperature (temp sign : Option PyStr) : Except Exc (Option F64) :=
  if sign = some py!"M" ∨ sign = some py!"-" then Verif.temperature (some (py!"-" ++ fmtO temp))
  else Verif.temperature temp

/-- `MetarSeaState.__init__` with a match (sea_state.py 34-55). `int / int` is correctly rounded;
when the height is missing, `Distance("None")` has no value. -/
def SeaState.new (m : Match) : Except Exc SeaState := do
  let t ← seaTemperature (m.group .temp) (m.group .sign)
  let height : Option F64 :=
    match pyInt (m.group .height) with
    | .ok n => distance (some (floatRepr (F64.lit (mkRat n 10))))
    | .error _ => distance (some py!"None")
  return ⟨groupCode (some m.string), t, dgetO seaStateTable (m.group .state), height⟩

/-- `MetarSeaState.__str__` (sea_state.py 57-82). -/
def SeaState.str (s : SeaState) : PyStr :=
  if s.temperature = Option.none ∧ s.height = Option.none ∧ s.state = Option.none then []
  else
    (if truthyO s.temperature then py!"temperature " ++ temperatureStr s.temperature ++ py!", "
      else py!"no temperature, ") ++
    (if truthyO s.height then py!"significant wave height " ++ distanceStr s.height ++ py!", "
      else py!"no significant wave height, ") ++
    (if strTruthy s.state then s.state.getD [] else py!"no sea state")

/-- `MetarSeaState.height_in_decimeters` (sea_state.py 119-122), `height_in_centimeters` (114-117),
`height_in_inches` (129-132). -/
def SeaState.inDecimeters (s : SeaState) : Option F64 := converted s.height Conv.M_TO_DM
def SeaState.inCentimeters (s : SeaState) : Option F64 := converted s.height Conv.M_TO_CM
def SeaState.inInches (s : SeaState) : Option F64 := converted s.height Conv.M_TO_IN

/-- `MetarSeaState.as_dict` (sea_state.py 134-141). -/
def SeaState.dict (s : SeaState) : PyVal :=
  .dict (dupdate [(py!"state", .ofStr s.state),
    (py!"temperature", .dict (temperatureDict s.temperature)), (py!"height", distanceDict s.height)]
    (groupDict s.code))

/-! ### Runway state (metar/runway_state.py) -/

/-- `RUNWAY_DEPOSITS` (runway_state.py 10-22). -/
def runwayDeposits : List (PyStr × PyStr) :=
  [(py!"0", py!"clear and dry"), (py!"1", py!"damp"), (py!"2", py!"wet and water patches"),
   (py!"3", py!"rime and frost covered (depth normally less than 1 mm)"), (py!"4", py!"dry snow"),
   (py!"5", py!"wet snow"), (py!"6", py!"slush"), (py!"7", py!"ice"),
   (py!"8", py!"compacted or rolled snow"), (py!"9", py!"frozen ruts or ridges"),
   (py!"/", py!"type of deposit not reported (e.g. due to runway clearance in progress)")]

/-- `RUNWAY_CONTAMINATION` (runway_state.py 25-36). -/
def runwayContamination : List (PyStr × PyStr) :=
  [(py!"1", py!"less than 10% of runway"), (py!"2", py!"11%-25% of runway"),
   (py!"3", py!"reserved"), (py!"4", py!"reserved"), (py!"5", py!"26%-50% of runway"),
   (py!"6", py!"reserved"), (py!"7", py!"reserved"), (py!"8", py!"reserved"),
   (py!"9", py!"51%-100% of runway"), (py!"/", py!"not reported")]

/-- `DEPOSIT_DEPTH` (runway_state.py 39-51). -/
def depositDepth : List (PyStr × PyStr) :=
  [(py!"00", py!"less than 1 mm"), (py!"91", py!"reserved"), (py!"92", py!"10 cm"),
   (py!"93", py!"15 cm"), (py!"94", py!"20 cm"), (py!"95", py!"25 cm"), (py!"96", py!"30 cm"),
   (py!"97", py!"35 cm"), (py!"98", py!"40 cm or more"),
   (py!"99", py!"runway(s) non-operational due to snow, slush, ice, large drifts or runway clearance, but depth not reported"),
   (py!"//", py!"depth of deposit operationally not significant or not measurable")]

/-- `SURFACE_FRICTION` (runway_state.py 54-65). -/
def surfaceFriction : List (PyStr × PyStr) :=
  [(py!"91", py!"breaking action poor"), (py!"92", py!"breaking action medium/poor"),
   (py!"93", py!"breaking action medium"), (py!"94", py!"breaking action medium/good"),
   (py!"95", py!"breaking action good"), (py!"96", py!"reserved"), (py!"97", py!"reserved"),
   (py!"98", py!"reserved"), (py!"99", py!"breaking action unreliable"),
   (py!"//", py!"breaking conditions not reported and/or runway not operational")]

/-- `MetarRunwayState` (runway_state.py 71-93); the captured texts the `__str__` methods read back
from the match object are kept. `present` tells that there was a match. -/
structure RunwayState where
  code : Option PyStr
  name : Option PyStr
  deposits : Option PyStr
  contamination : Option PyStr
  depth : Option PyStr
  friction : Option PyStr
  snoclo : Bool
  clrd_ : Bool
  present : Bool
  mDeposit : Option PyStr
  mDepth : Option PyStr
  mFric : Option PyStr
deriving DecidableEq, Repr

/-- `MetarRunwayState(None)` (runway_state.py 72-83). -/
def RunwayState.none : RunwayState :=
  ⟨Option.none, Option.none, Option.none, Option.none, Option.none, Option.none, false, false, false,
    Option.none, Option.none, Option.none⟩

/-- `_set_deposits_depth` (runway_state.py 95-109). -/
def setDepositsDepth : Option PyStr → Option PyStr
  | none => none
  | some code =>
    match intOf code with
    | some n => if 0 < n ∧ n ≤ 90 then some (natStr n ++ py!" mm") else dget depositDepth code
    | none => dget depositDepth code

/-- `_set_surface_friction` (runway_state.py 111-125). -/
def setSurfaceFriction : Option PyStr → Option PyStr
  | none => none
  | some code =>
    match intOf code with
    | some n => if n ≤ 90 then some (py!"0." ++ padNat 2 n) else dget surfaceFriction code
    | none => dget surfaceFriction code

/-- `MetarRunwayState.__init__` with a match (runway_state.py 84-93). -/
def RunwayState.new (m : Match) : RunwayState :=
  ⟨groupCode (some m.string), setRunwayName (m.group .name),
    dgetO runwayDeposits (m.group .deposit), dgetO runwayContamination (m.group .cont),
    setDepositsDepth (m.group .depth), setSurfaceFriction (m.group .fric),
    (m.group .snoclo).isSome, (m.group .clrd).isSome, true,
    m.group .deposit, m.group .depth, m.group .fric⟩

/-- `_deposits_to_str` (runway_state.py 127-154), as it prints inside an f-string. -/
def RunwayState.depositsText (r : RunwayState) : PyStr :=
  if r.mDeposit = some py!"/" then
    if r.mDepth = some py!"99" ∨ r.mDepth = some py!"//" then
      fmtO r.depth ++ py!" and " ++ fmtO r.deposits
    else if r.mDepth ≠ Option.none then
      py!"depth of " ++ fmtO r.depth ++ py!" but " ++ fmtO r.deposits
    else fmtO r.deposits
  else if r.mDeposit ≠ Option.none then
    if r.mDepth = some py!"99" ∨ r.mDepth = some py!"//" then
      fmtO r.depth ++ py!" of " ++ fmtO r.deposits
    else if r.mDepth ≠ Option.none then
      py!"deposits of " ++ fmtO r.depth ++ py!" of " ++ fmtO r.deposits
    else py!"deposits of " ++ fmtO r.deposits
  else if r.mDepth = some py!"99" ∨ r.mDepth = some py!"//" then fmtO r.depth
  else if r.mDepth ≠ Option.none then py!"deposits depth of " ++ fmtO r.depth
  else []

/-- `_surface_friction_to_str` (runway_state.py 156-171), as it prints inside an f-string. -/
def RunwayState.frictionText (r : RunwayState) : PyStr :=
  match r.mFric with
  | Option.none => []
  | some f =>
    match intOf f with
    | Option.none => fmtO r.friction
    | some n =>
      if n < 91 then py!"estimated surface friction " ++ fmtO r.friction else fmtO r.friction

/-- `MetarRunwayState.clrd` (runway_state.py 223-237). -/
def RunwayState.clrd (r : RunwayState) : Option PyStr :=
  if r.clrd_ = false then Option.none
  else if r.name = some py!"repeated" then
    some (py!"contaminations have ceased to exists" ++ py!" on previous runway")
  else if r.name = some py!"all runways" then
    some (py!"contaminations have ceased to exists" ++ py!" on " ++ fmtO r.name)
  else some (py!"contaminations have ceased to exists" ++ py!" on runway " ++ fmtO r.name)

/-- `MetarRunwayState.__str__` (runway_state.py 173-188). -/
def RunwayState.str (r : RunwayState) : PyStr :=
  if r.present = false then []
  else if r.snoclo then py!"aerodrome is closed due to extreme deposit of snow"
  else
    match r.clrd with
    | some t => t
    | Option.none =>
      fmtO r.name ++ py!", " ++ r.depositsText ++ py!", contamination " ++ fmtO r.contamination ++
        py!", " ++ r.frictionText

/-- `MetarRunwayState.as_dict` (runway_state.py 239-250). -/
def RunwayState.dict (r : RunwayState) : PyVal :=
  .dict (dupdate [(py!"name", .ofStr r.name), (py!"deposits", .ofStr r.deposits),
    (py!"contamination", .ofStr r.contamination), (py!"deposits_depth", .ofStr r.depth),
    (py!"surface_friction", .ofStr r.friction), (py!"snoclo", .bool r.snoclo),
    (py!"clrd", .ofStr r.clrd)] (groupDict r.code))

end Verif
