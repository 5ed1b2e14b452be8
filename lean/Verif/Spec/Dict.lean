import Verif.Model.Taf

/-
Specification of the dictionaries of reports: which value is found at which place.
-/

namespace Verif.Spec

/-- The labels of the members of a list in its dictionary, in order. (The ninth is misspelt in the
library.) -/
def ordinals : List PyStr :=
  [py!"first", py!"second", py!"third", py!"fourth", py!"fifth", py!"sixth", py!"seventh",
   py!"eighth", py!"nineth", py!"tenth"]

/-- A place in a dictionary: names of entries and indices of lists, from the outside in. -/
inductive Key where
  | name (s : PyStr)
  | idx (i : Nat)
deriving DecidableEq, Repr

/-- Places and the values there. -/
abbrev Table := List (List Key × PyVal)

/-- A table below an entry. -/
def under (k : Key) (t : Table) : Table := t.map fun e => (k :: e.1, e.2)

/-- The values that are not dictionaries or lists (unless empty) with their places, down to depth
`n`, in the order of insertion. -/
def leaves : Nat → PyVal → Table
  | n + 1, .dict (x :: d) => (x :: d).flatMap fun kv => under (.name kv.1) (leaves n kv.2)
  | n + 1, .list (x :: l) => (x :: l).zipIdx.flatMap fun vi => under (.idx vi.2) (leaves n vi.1)
  | _, v => [([], v)]

/-! ### The tables of the groups -/

def text (k : PyStr) (v : Option PyStr) : Table := [([.name k], .ofStr v)]
def number (k : PyStr) (v : Option F64) : Table := [([.name k], .ofFloat v)]
def flag (k : PyStr) (v : Bool) : Table := [([.name k], .bool v)]
def sub (k : PyStr) (t : Table) : Table := under (.name k) t

def strings (l : List PyStr) : Table :=
  if l = [] then [([], .list [])] else l.zipIdx.map fun si => ([.idx si.2], .str si.1)

/-- A list of groups as a dictionary with ordinal labels. -/
def labelled {α : Type} (t : α → Table) (l : List α) : Table :=
  if l = [] then [([], .dict [])] else (ordinals.zip l).flatMap fun x => under (.name x.1) (t x.2)

/-- A list of groups as a list. -/
def indexed {α : Type} (t : α → Table) (l : List α) : Table :=
  if l = [] then [([], .list [])] else l.zipIdx.flatMap fun x => under (.idx x.2) (t x.1)

def directionTable (d : Direction) : Table :=
  text py!"cardinal" d.cardinal ++ flag py!"variable" d.variable_ ++
  text py!"units" (some py!"degrees") ++ number py!"direction" d.value

def speedTable (v : Option F64) : Table := text py!"units" (some py!"knot") ++ number py!"speed" v

def distanceTable (v : Option F64) : Table :=
  text py!"units" (some py!"meters") ++ number py!"distance" v

def celsiusTable (v : Option F64) : Table :=
  text py!"units" (some py!"celsius") ++ number py!"temperature" v

def timeTable (t : Time) : Table := text py!"datetime" (some t.time.str) ++ text py!"code" t.code

def typeTable (t : ReportType) : Table := text py!"type" t.type_ ++ text py!"code" t.code

def stationTable (db : Database) (s : Station) : Table :=
  text py!"name" (s.row.map (·.name)) ++ text py!"icao" (s.row.map (·.icao)) ++
  text py!"iata" (s.row.map (·.iata)) ++ text py!"synop" (s.row.map (·.synop)) ++
  text py!"latitude" (s.row.map (·.latitude)) ++ text py!"longitude" (s.row.map (·.longitude)) ++
  text py!"elevation" (s.row.map (·.elevation)) ++ text py!"country" (s.country db) ++
  text py!"code" s.code

def modifierTable (m : Modifier) : Table := text py!"modifier" m.description ++ text py!"code" m.code

def windTable (w : MetarWind) : Table :=
  sub py!"direction" (directionTable w.direction) ++ sub py!"speed" (speedTable w.speed) ++
  sub py!"gust" (speedTable w.gust) ++ text py!"code" w.code

def variationTable (w : WindVariation) : Table :=
  sub py!"from_" (directionTable w.from_) ++ sub py!"to" (directionTable w.to) ++ text py!"code" w.code

def minimumTable (v : Visibility) : Table :=
  sub py!"direction" (directionTable v.direction) ++ sub py!"visibility" (distanceTable v.vis) ++
  text py!"code" v.code

def prevailingTable (v : Visibility) : Table := minimumTable v ++ flag py!"cavok" v.cavok

def rangeTable (r : RunwayRange) : Table :=
  text py!"name" r.name ++ text py!"rvr_low" r.rvrLow ++ sub py!"low_range" (distanceTable r.low) ++
  text py!"rvr_high" r.rvrHigh ++ sub py!"high_range" (distanceTable r.high) ++
  text py!"trend" r.trend ++ text py!"code" r.code

def weatherTable (w : Weather) : Table :=
  text py!"intensity" w.intensity ++ text py!"description" w.description ++
  text py!"precipitation" w.precipitation ++ text py!"obscuration" w.obscuration ++
  text py!"other" w.other ++ text py!"code" w.code

def cloudTable (c : Cloud) : Table :=
  text py!"cover" c.cover ++ text py!"oktas" c.oktas ++ text py!"height_units" (some py!"meters") ++
  number py!"height" c.height ++ text py!"type" c.type ++ text py!"code" c.code

def temperaturesTable (t : Temperatures) : Table :=
  sub py!"temperature" (celsiusTable t.temperature) ++ sub py!"dewpoint" (celsiusTable t.dewpoint) ++
  text py!"code" t.code

/-- The dictionary of a pressure has no "code". -/
def pressureTable (p : MetarPressure) : Table :=
  text py!"units" (some py!"hectopascals") ++ number py!"pressure" p.value

def recentTable (w : RecentWeather) : Table :=
  text py!"description" w.description ++ text py!"obscuration" w.obscuration ++
  text py!"other" w.other ++ text py!"precipitation" w.precipitation ++ text py!"code" w.code

def windshearTable (w : Windshear) : Table :=
  flag py!"all" w.all_ ++ text py!"name" w.name ++ text py!"code" w.code

def seaTable (s : SeaState) : Table :=
  text py!"state" s.state ++ sub py!"temperature" (celsiusTable s.temperature) ++
  sub py!"height" (distanceTable s.height) ++ text py!"code" s.code

def runwayStateTable (r : RunwayState) : Table :=
  text py!"name" r.name ++ text py!"deposits" r.deposits ++ text py!"contamination" r.contamination ++
  text py!"deposits_depth" r.depth ++ text py!"surface_friction" r.friction ++
  flag py!"snoclo" r.snoclo ++ text py!"clrd" r.clrd ++ text py!"code" r.code

/-- The attributes shared by trends and changes. Their indicators and unparsed groups are not in
their dictionaries. -/
def forecastTableWith (weathers : List Weather) (clouds : List Cloud) (code : Option PyStr) (c : Core) :
    Table :=
  sub py!"wind" (windTable c.wind) ++ sub py!"prevailing_visibility" (prevailingTable c.prevailing) ++
  sub py!"weathers" (indexed weatherTable weathers) ++
  sub py!"clouds" (indexed cloudTable clouds) ++ text py!"flight_rules" c.flightRules ++
  text py!"code" code

/-- All weathers and clouds are shown. -/
def forecastTable (code : Option PyStr) (c : Core) : Table :=
  forecastTableWith c.weathers.list c.clouds.list code c

/-- The weathers and clouds are shown that the iterators of the lists have not passed yet. -/
def forecastTableNow (code : Option PyStr) (c : Core) : Table :=
  forecastTableWith (c.weathers.list.drop c.weathers.n) (c.clouds.list.drop c.clouds.n) code c

def validTable (v : Valid) : Table :=
  sub py!"from_" (timeTable v.from_) ++ sub py!"until" (timeTable v.until_) ++ text py!"code" v.code

def missingTable (x : Missing) : Table := flag py!"is_missing" x.isMissing ++ modifierTable x.mod

def cancelledTable (x : Cancelled) : Table :=
  flag py!"is_cancelled" x.isCancelled ++ text py!"code" x.code

/-- The entry "code" is that of the time of the temperature. -/
def tafTemperatureTable (t : TafTemperature) : Table :=
  celsiusTable t.value ++ text py!"code" t.time.code ++ text py!"datetime" (some t.time.time.str)

/-! ### The tables of the reports -/

def reportTable (db : Database) (raw : PyStr) (sections un : List PyStr) (t : ReportType)
    (s : Station) (time : Time) : Table :=
  text py!"code" (some raw) ++ sub py!"sections" (strings sections) ++
  sub py!"unparsed_groups" (strings un) ++ sub py!"type_" (typeTable t) ++
  sub py!"station" (stationTable db s) ++ sub py!"time" (timeTable time)

/-- The table of a METAR, where the trends have the tables `t`. -/
def metarTableWith (t : Option PyStr → Core → Table) (db : Database) (r : Metar) : Table :=
  reportTable db r.rawCode r.sections r.unparsed r.type r.station r.time ++
  sub py!"modifier" (modifierTable r.modifier) ++ sub py!"wind" (windTable r.core.wind) ++
  sub py!"wind_variation" (variationTable r.windVariation) ++
  sub py!"prevailing_visibility" (prevailingTable r.core.prevailing) ++
  sub py!"minimum_visibility" (minimumTable r.minimumVisibility) ++
  sub py!"runway_ranges" (labelled rangeTable r.runwayRanges.list) ++
  sub py!"weathers" (labelled weatherTable r.core.weathers.list) ++
  sub py!"clouds" (labelled cloudTable r.core.clouds.list) ++
  sub py!"temperatures" (temperaturesTable r.temperatures) ++
  sub py!"pressure" (pressureTable r.pressure) ++
  sub py!"recent_weather" (recentTable r.recentWeather) ++
  sub py!"windshears" (labelled windshearTable r.windshears.list) ++
  sub py!"sea_state" (seaTable r.seaState) ++
  sub py!"runway_state" (runwayStateTable r.runwayState) ++
  text py!"flight_rules" r.core.flightRules ++
  sub py!"weather_trends" (labelled (fun p : ChangePeriod => t p.code p.core) r.weatherTrends.list) ++
  text py!"remark" (some r.remark)

def metarTable (db : Database) (r : Metar) : Table := metarTableWith forecastTable db r

/-- The table of a TAF, where the changes have the tables `t`. -/
def tafTableWith (t : Option PyStr → Core → Table) (db : Database) (r : Taf) : Table :=
  reportTable db r.rawCode r.sections r.unparsed r.type r.station r.time ++
  sub py!"modifier" (modifierTable r.modifier) ++ sub py!"missing" (missingTable r.missing) ++
  sub py!"valid" (validTable r.valid) ++ sub py!"cancelled" (cancelledTable r.cancelled) ++
  sub py!"wind" (windTable r.core.wind) ++
  sub py!"prevailing_visibility" (prevailingTable r.core.prevailing) ++
  sub py!"weathers" (labelled weatherTable r.core.weathers.list) ++
  sub py!"clouds" (labelled cloudTable r.core.clouds.list) ++
  sub py!"max_temperatures" (labelled tafTemperatureTable r.maxTemperatures.list) ++
  sub py!"min_temperatures" (labelled tafTemperatureTable r.minTemperatures.list) ++
  sub py!"changes_forecasted" (labelled (fun x : ChangeForecasted => t (some x.code) x.core)
    r.changes.list)

def tafTable (db : Database) (r : Taf) : Table := tafTableWith forecastTable db r

end Verif.Spec
