import Verif.Model.Forecast

/-
Model of `reports/metar.py` and of `reports/models/base/report.py`.
-/

namespace Verif

/-- The pattern of `Report.__init__` (report.py 22). -/
def blanksRE : RE := re! [r"\s{2,}|\n+|\t+"]

/-- The clean-up of the code in `Report.__init__` (report.py 17-23). -/
def normalizeCode (code : PyStr) : PyStr :=
  replace (blanksRE.sub py!" " (strip code) 0) py!"=" []

/-- The successive readings of the system clock (`datetime.utcnow()`) during a constructor call. -/
abbrev Clock := Nat → Now

/-- The arguments of the `Metar` and `Taf` constructors besides the code (metar.py 31-37, taf.py
44-50). -/
structure Args where
  year : Option Int := none
  month : Option Int := none
  truncate : Bool := false
deriving DecidableEq, Repr

structure Metar where
  rawCode : PyStr
  sections : List PyStr
  unparsed : List PyStr := []
  core : Core := {}
  type : ReportType
  station : Station
  time : Time
  modifier : Modifier
  windVariation : WindVariation := WindVariation.none
  minimumVisibility : Visibility := Visibility.none
  runwayRanges : GroupList RunwayRange := GroupList.new 3
  temperatures : Temperatures := Temperatures.none
  pressure : MetarPressure := MetarPressure.none
  recentWeather : RecentWeather := RecentWeather.none
  windshears : GroupList Windshear := GroupList.new 3
  seaState : SeaState := SeaState.none
  runwayState : RunwayState := RunwayState.none
  weatherTrends : GroupList ChangePeriod := GroupList.new 2
deriving Repr

/-- The loop of `Metar._handle_sections` (metar.py 273-283): body, trend, remark. -/
def metarSectionsGo : List PyStr → PyStr → PyStr → PyStr → PyStr × PyStr × PyStr
  | [], body, trend, remark => (body, trend, remark)
  | s :: ss, body, trend, remark =>
    if startsWith s py!"TEMPO" ∨ startsWith s py!"BECMG" ∨ startsWith s py!"NOSIG" then
      metarSectionsGo ss body (trend ++ (s ++ py!" ")) remark
    else if startsWith s py!"RMK" then metarSectionsGo ss body trend s
    else metarSectionsGo ss s trend remark

/-- `Metar._handle_sections` (metar.py 265-285). -/
def metarSections (rawCode : PyStr) : PyStr × PyStr × PyStr :=
  let (b, t, r) := metarSectionsGo
    (splitSentence rawCode [py!"NOSIG", py!"TEMPO", py!"BECMG", py!"RMK"] 0 .left) [] [] []
  (b, strip t, r)

namespace Metar

/-- `Metar.body` (metar.py 72-75), `trend` (77-80), `remark` (82-85). -/
def body (r : Metar) : PyStr := r.sections.getD 0 []
def trend (r : Metar) : PyStr := r.sections.getD 1 []
def remark (r : Metar) : PyStr := r.sections.getD 2 []

def concat (r : Metar) (text : PyStr) : Metar := { r with core := r.core.concat text }

/-- `Report._handle_type` (report.py 42-45). -/
def handleType (m : Match) (r : Metar) : Except Exc Metar :=
  let t := ReportType.new m.string
  .ok ({ r with type := t }.concat t.str)

/-- `Report._handle_station` (report.py 52-55). -/
def handleStation (db : Database) (m : Match) (r : Metar) : Except Exc Metar := do
  let s ← Station.new db (some m.string) py!"ICAO"
  return { r with station := s }.concat (s.str db)

/-- `Metar._handle_time` (metar.py 87-90). -/
def handleTime (now : Now) (a : Args) (m : Match) (r : Metar) : Except Exc Metar := do
  let t ← Time.fromMetar now (some m) a.year a.month
  return { r with time := t }.concat t.str

/-- `ModifierMixin._handle_modifier` (modifier.py 52-55). -/
def handleModifier (m : Match) (r : Metar) : Except Exc Metar :=
  let x := Modifier.new (some m.string)
  .ok ({ r with modifier := x }.concat x.str)

/-- `Metar._handle_wind_variation` (metar.py 92-95). -/
def handleWindVariation (m : Match) (r : Metar) : Except Exc Metar := do
  let w ← WindVariation.new m
  return { r with windVariation := w }.concat w.str

/-- `Metar._handle_minimum_visibility` (metar.py 102-105). -/
def handleMinimumVisibility (m : Match) (r : Metar) : Except Exc Metar := do
  let v ← Verif.minimumVisibility m
  return { r with minimumVisibility := v }.concat v.str

/-- `Metar._handle_runway_range` (metar.py 112-116). -/
def handleRunwayRange (m : Match) (r : Metar) : Except Exc Metar := do
  let x ← RunwayRange.new m
  let l ← r.runwayRanges.add x
  return { r with runwayRanges := l }.concat x.str

/-- `Metar._handle_temperatures` (metar.py 123-126). -/
def handleTemperatures (m : Match) (r : Metar) : Except Exc Metar := do
  let t ← Temperatures.new m
  return { r with temperatures := t }.concat t.str

/-- `Metar._handle_pressure` (metar.py 133-136). -/
def handlePressure (m : Match) (r : Metar) : Except Exc Metar := do
  let p ← MetarPressure.new m
  return { r with pressure := p }.concat p.str

/-- `Metar._handle_recent_weather` (metar.py 143-146). -/
def handleRecentWeather (m : Match) (r : Metar) : Except Exc Metar :=
  let w := RecentWeather.new m
  .ok ({ r with recentWeather := w }.concat w.str)

/-- `Metar._handle_windshear` (metar.py 153-157). -/
def handleWindshear (m : Match) (r : Metar) : Except Exc Metar := do
  let w := Windshear.new m
  let l ← r.windshears.add w
  return { r with windshears := l }.concat w.str

/-- `Metar._handle_sea_state` (metar.py 164-167). -/
def handleSeaState (m : Match) (r : Metar) : Except Exc Metar := do
  let s ← SeaState.new m
  return { r with seaState := s }.concat s.str

/-- `Metar._handle_runway_state` (metar.py 174-177). -/
def handleRunwayState (m : Match) (r : Metar) : Except Exc Metar :=
  let s := RunwayState.new m
  .ok ({ r with runwayState := s }.concat s.str)

/-- `Metar._handle_weather_trend` (metar.py 184-188). -/
def handleWeatherTrend (code : PyStr) (r : Metar) : Except Exc Metar := do
  let wt ← ChangePeriod.new code r.time.time
  let l ← r.weatherTrends.add wt
  return { r with weatherTrends := l }.concat wt.str

def lift (h : Match → Core → Except Exc Core) : Match → Metar → Except Exc Metar :=
  liftCore (·.core) (fun r c => { r with core := c }) h

/-- The handlers of `Metar._parse_body` (metar.py 198-228). -/
def handlers (db : Database) (now : Now) (a : Args) : List (Handler Metar) :=
  [⟨MetarRegExp.TYPE, handleType⟩,
   ⟨MetarRegExp.STATION, handleStation db⟩,
   ⟨MetarRegExp.TIME, handleTime now a⟩,
   ⟨MetarRegExp.MODIFIER, handleModifier⟩,
   ⟨MetarRegExp.WIND, lift Core.handleWind⟩,
   ⟨MetarRegExp.WIND_VARIATION, handleWindVariation⟩,
   ⟨MetarRegExp.VISIBILITY, lift Core.handlePrevailing⟩,
   ⟨MetarRegExp.MINIMUM_VISIBILITY, handleMinimumVisibility⟩,
   ⟨MetarRegExp.RUNWAY_RANGE, handleRunwayRange⟩,
   ⟨MetarRegExp.RUNWAY_RANGE, handleRunwayRange⟩,
   ⟨MetarRegExp.RUNWAY_RANGE, handleRunwayRange⟩,
   ⟨MetarRegExp.WEATHER, lift Core.handleWeather⟩,
   ⟨MetarRegExp.WEATHER, lift Core.handleWeather⟩,
   ⟨MetarRegExp.WEATHER, lift Core.handleWeather⟩,
   ⟨MetarRegExp.CLOUD, lift Core.handleCloud⟩,
   ⟨MetarRegExp.CLOUD, lift Core.handleCloud⟩,
   ⟨MetarRegExp.CLOUD, lift Core.handleCloud⟩,
   ⟨MetarRegExp.CLOUD, lift Core.handleCloud⟩,
   ⟨MetarRegExp.TEMPERATURES, handleTemperatures⟩,
   ⟨MetarRegExp.PRESSURE, handlePressure⟩,
   ⟨MetarRegExp.PRESSURE, handlePressure⟩,
   ⟨MetarRegExp.RECENT_WEATHER, handleRecentWeather⟩,
   ⟨MetarRegExp.WINDSHEAR, handleWindshear⟩,
   ⟨MetarRegExp.WINDSHEAR, handleWindshear⟩,
   ⟨MetarRegExp.WINDSHEAR, handleWindshear⟩,
   ⟨MetarRegExp.SEA_STATE, handleSeaState⟩,
   ⟨MetarRegExp.RUNWAY_STATE, handleRunwayState⟩]

/-- `Metar._parse_body` (metar.py 195-234). -/
def parseBody (db : Database) (now : Now) (a : Args) (r : Metar) : Except Exc Metar := do
  let text := sanitizeWindshear (sanitizeVisibility r.body)
  let (r, un) ← parseSection (handlers db now a) text r
  return { r with unparsed := r.unparsed ++ un }

/-- First loop of `Metar._parse_weather_trend` (metar.py 250-252). -/
def trendsGo : List PyStr → Metar → Except Exc Metar
  | [], r => .ok r
  | t :: ts, r =>
    if t ≠ [] then do
      let r ← handleWeatherTrend t r
      trendsGo ts r
    else trendsGo ts r

/-- The message of the `ParserError` (metar.py 258-263, taf.py 188-193). -/
def errorMessage (unparsed : List PyStr) (rawCode : PyStr) : PyStr :=
  py!"failed while processing " ++ join py!", " unparsed ++ py!" from: " ++ rawCode

/-- `Metar._parse_weather_trend` (metar.py 236-263). -/
def parseWeatherTrend (a : Args) (r : Metar) : Except Exc Metar := do
  let trends := splitSentence r.trend [py!"TEMPO", py!"BECMG"] 1 .both
  let r ← trendsGo trends r
  let (wts, wl) := r.weatherTrends.iter
  let r := { r with
    weatherTrends := wl, unparsed := r.unparsed ++ wts.flatMap ChangePeriod.unparsed }
  if r.unparsed ≠ [] ∧ a.truncate then throw (Exc.parser (errorMessage r.unparsed r.rawCode))
  return r

/-- `Metar.__init__` (metar.py 31-70) with `Report.__init__` (report.py 16-35). The clock is read
by `TimeMixin.__init__` (reading 0), at metar.py 54 (reading 1) and by the time handler
(reading 2). -/
def new (db : Database) (clock : Clock) (code : PyStr) (a : Args) : Except Exc Metar := do
  if code = [] then throw Exc.assertion
  let raw := normalizeCode code
  let _ ← Time.new (clock 0) none none none none none none
  let ty := ReportType.new (upper py!"METAR")
  let st ← Station.new db none []
  let (b, t, rm) := metarSections raw
  let time ← Time.fromMetar (clock 1) none a.year a.month
  let r : Metar :=
    { rawCode := raw, sections := [b, t, rm], type := ty, station := st, time := time,
      modifier := Modifier.new none }
  let r ← parseBody db (clock 2) a r
  parseWeatherTrend a r

/-- `str(metar)` (string_attribute.py 18-19). -/
def str (r : Metar) : PyStr := r.core.str

/-- `Metar.as_dict` (metar.py 287-310) with `Report.as_dict` (report.py 88-97); the trends'
dictionaries are those of their current state. -/
def dict (db : Database) (r : Metar) : Except Exc PyVal := do
  let rr ← r.runwayRanges.asDict fun x => .ok x.dict
  let ws ← r.core.weathers.asDict fun x => .ok x.dict
  let cs ← r.core.clouds.asDict fun x => .ok x.dict
  let wsh ← r.windshears.asDict fun x => .ok x.dict
  let wt ← r.weatherTrends.asDict fun x => .ok x.dict.1
  return .dict (dupdate
    [(py!"code", .str r.rawCode), (py!"sections", .list (r.sections.map .str)),
     (py!"unparsed_groups", .list (r.unparsed.map .str)), (py!"type_", r.type.dict),
     (py!"station", r.station.dict db), (py!"time", .dict r.time.dict)]
    [(py!"modifier", .dict r.modifier.dict), (py!"wind", r.core.wind.dict),
     (py!"wind_variation", r.windVariation.dict),
     (py!"prevailing_visibility", r.core.prevailing.dictPrev),
     (py!"minimum_visibility", .dict r.minimumVisibility.dictMin), (py!"runway_ranges", rr),
     (py!"weathers", ws), (py!"clouds", cs), (py!"temperatures", r.temperatures.dict),
     (py!"pressure", r.pressure.dict), (py!"recent_weather", r.recentWeather.dict),
     (py!"windshears", wsh), (py!"sea_state", r.seaState.dict),
     (py!"runway_state", r.runwayState.dict), (py!"flight_rules", .ofStr r.core.flightRules),
     (py!"weather_trends", wt), (py!"remark", .str r.remark)])

end Metar

end Verif
