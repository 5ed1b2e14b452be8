import Verif.Model.Group
import Verif.Py.Repr
import Verif.Model.Conversions
import Verif.Py.DateTime

/-
Model of `reports/models/base/`: numeric attributes, wind, time, type, modifier, station, change
indicator, clouds and flight rules.
-/

namespace Verif

/-- `int(x)` of a captured group: `TypeError` on `None`, `ValueError` on anything but digits. -/
def pyInt : Option PyStr → Except Exc Nat
  | none => .error .type
  | some s =>
    match intOf s with
    | some n => .ok n
    | none => .error .value

/-- `float(x)` of a captured group: `TypeError` on `None`, `ValueError` if not a number. -/
def pyFloat : Option PyStr → Except Exc F64
  | none => .error .type
  | some s =>
    match floatOf s with
    | some x => .ok x
    | none => .error .value

/-- `Numeric.__str__` (numeric.py 13-17). -/
def numStr : Option F64 → PyStr
  | none => []
  | some x => fmt1 x

/-- `__str__` of Distance/Pressure/Temperature/Speed: the unit is appended when the value is
truthy (distance.py 24-28, pressure.py 21-25, temperature.py 28-32, wind.py 154-158). -/
def numStrUnit (v : Option F64) (unit : PyStr) : PyStr :=
  if truthyO v then numStr v ++ unit else numStr v

/-- `Numeric.converted(factor=...)` (numeric.py 35-44) with a non-zero factor. -/
def converted (v : Option F64) (factor : F64) : Option F64 := v.map fun x => x.mul factor

/-- `Numeric.converted(conversion=...)` (numeric.py 35-44). -/
def convertedBy (v : Option F64) (conv : F64 → F64) : Option F64 := v.map conv

/-! ### Distance (distance.py) -/

/-- `Distance.__init__` (distance.py 10-22): the value in metres. -/
def distance : Option PyStr → Option F64
  | none => floatOf py!"////"
  | some code => floatOf (if code = py!"9999" then py!"10000" else code)

/-- `Distance.__str__` (distance.py 24-28). -/
def distanceStr (v : Option F64) : PyStr := numStrUnit v py!" m"

/-- `Distance.in_kilometers` (36-38), `in_sea_miles` (41-43), `in_feet` (46-48). -/
def inKilometers (v : Option F64) : Option F64 := converted v Conv.M_TO_KM
def inSeaMiles (v : Option F64) : Option F64 := converted v Conv.M_TO_SMI
def inFeet (v : Option F64) : Option F64 := converted v Conv.M_TO_FT

/-- `Distance.as_dict` (50-54). -/
def distanceDict (v : Option F64) : PyVal :=
  .dict [(py!"units", .str py!"meters"), (py!"distance", .ofFloat v)]

/-! ### Pressure (pressure.py) -/

/-- `Pressure.__init__` (pressure.py 10-19): the value in hPa. -/
def pressure : Option PyStr → Option F64
  | none => floatOf py!"////"
  | some code => floatOf code

/-- `Pressure.__str__` (21-25). -/
def pressureStr (v : Option F64) : PyStr := numStrUnit v py!" hPa"
def inInHg (v : Option F64) : Option F64 := converted v Conv.HPA_TO_INHG   -- 33-35
def inMbar (v : Option F64) : Option F64 := converted v Conv.HPA_TO_MBAR   -- 38-40
def inBar (v : Option F64) : Option F64 := converted v Conv.HPA_TO_BAR     -- 43-45
def inAtm (v : Option F64) : Option F64 := converted v Conv.HPA_TO_ATM     -- 48-50

/-- `Pressure.as_dict` (52-56). -/
def pressureDict (v : Option F64) : List (PyStr × PyVal) :=
  [(py!"units", .str py!"hectopascals"), (py!"pressure", .ofFloat v)]

/-! ### Temperature (temperature.py) -/

/-- `Temperature.__init__` (temperature.py 10-26): the value in degrees Celsius. -/
def temperature (code : Option PyStr) : Except Exc (Option F64) :=
  let code : PyStr :=
    match code with
    | none => py!"///"
    | some c => if c = py!"//" ∨ c = py!"///" then py!"///" else c
  let code := if (replace code py!"-" []).length = 2 then code ++ py!"0" else code
  if (replace code py!"-" []).length ≠ 3 then .error .assertion
  else .ok ((floatOf code).map fun x => x.div (F64.ofNat 10))

/-- `Temperature.__str__` (28-32). -/
def temperatureStr (v : Option F64) : PyStr := numStrUnit v py!"°C"
def inKelvin (v : Option F64) : Option F64 := convertedBy v Conv.celsius_to_kelvin         -- 40-42
def inFahrenheit (v : Option F64) : Option F64 := convertedBy v Conv.celsius_to_fahrenheit -- 45-47
def inRankine (v : Option F64) : Option F64 := convertedBy v Conv.celsius_to_rankine       -- 50-52

/-- `Temperature.as_dict` (54-58). -/
def temperatureDict (v : Option F64) : List (PyStr × PyVal) :=
  [(py!"units", .str py!"celsius"), (py!"temperature", .ofFloat v)]

/-! ### Direction (wind.py) -/

/-- `Direction` (wind.py 32-53): the value in degrees and the `variable` flag. -/
structure Direction where
  value : Option F64
  variable_ : Bool
deriving DecidableEq, Repr

/-- `Direction.__init__` (wind.py 35-53). -/
def Direction.new (code : Option PyStr) : Except Exc Direction :=
  let code : PyStr :=
    match code with
    | none => py!"///"
    | some c => if c = py!"//" then py!"///" else c
  let code := if code.length = 2 then code ++ py!"0" else code
  if code.length ≠ 3 then .error .assertion
  else
    match floatOf code with
    | some x => .ok ⟨some x, false⟩
    | none => .ok ⟨none, code = py!"VRB"⟩

/-- `COMPASS_DIRS` (wind.py 12-29), in dictionary order. -/
def compassDirs : List (PyStr × Rat × Rat) :=
  [(py!"NNE", 11.25, 33.75), (py!"NE", 33.75, 56.25), (py!"ENE", 56.25, 78.75),
   (py!"E", 78.75, 101.25), (py!"ESE", 101.25, 123.75), (py!"SE", 123.75, 146.25),
   (py!"SSE", 146.25, 168.75), (py!"S", 168.75, 191.25), (py!"SSW", 191.25, 213.75),
   (py!"SW", 213.75, 236.25), (py!"WSW", 236.25, 258.75), (py!"W", 258.75, 281.25),
   (py!"WNW", 281.25, 303.75), (py!"NW", 303.75, 326.25), (py!"NNW", 326.25, 348.75),
   (py!"N", 348.75, 11.25)]

/-- `round(sum(COMPASS_DIRS[key]) / 2)` (wind.py 80): half to even; the sums are exact. -/
def meanDir (a b : Rat) : Nat :=
  let q := (F64.div (F64.add (F64.lit a) (F64.lit b)) (F64.ofNat 2)).val
  rhe q.num.natAbs q.den

/-- `Direction.from_cardinal` (wind.py 64-88). -/
def Direction.fromCardinal (code : PyStr) : Except Exc Direction :=
  if code = py!"N" then Direction.new (some py!"360")
  else
    match compassDirs.lookup code with
    | some (a, b) => Direction.new (some (padNat 3 (meanDir a b)))
    | none => .error .value

/-- Loop of `Direction.cardinal` (wind.py 102-104). -/
def cardinalGo (v : F64) : List (PyStr × Rat × Rat) → Option PyStr
  | [] => none
  | (k, a, b) :: t => if (F64.lit a).le v && v.lt (F64.lit b) then some k else cardinalGo v t

/-- `Direction.cardinal` (wind.py 90-104); `converted(1)` multiplies by one. -/
def Direction.cardinal (d : Direction) : Option PyStr :=
  match converted d.value (F64.ofNat 1) with
  | none => none
  | some v =>
    if (F64.lit 348.75).le v || v.lt (F64.lit 11.25) then some py!"N"
    else cardinalGo v compassDirs

def Direction.inRadians (d : Direction) : Option F64 := converted d.value Conv.DEGREES_TO_RADIANS   -- 117-119
def Direction.inGradians (d : Direction) : Option F64 := converted d.value Conv.DEGREES_TO_GRADIANS -- 122-124

/-- `Direction.__str__` (wind.py 55-62). -/
def Direction.str (d : Direction) : PyStr :=
  if d.variable_ then py!"variable wind"
  else numStrUnit d.value py!"°"

/-- `Direction.as_dict` (wind.py 126-132). -/
def Direction.dict (d : Direction) : PyVal :=
  .dict [(py!"cardinal", .ofStr d.cardinal), (py!"variable", .bool d.variable_),
    (py!"units", .str py!"degrees"), (py!"direction", .ofFloat d.value)]

/-! ### Speed and Wind (wind.py) -/

/-- `Speed.__init__` (wind.py 138-152): the value in knots. -/
def speed (code : Option PyStr) : Except Exc (Option F64) :=
  let code : PyStr :=
    match code with
    | some c => if c = py!"//" then py!"///" else c
    | none => py!"///"
  let code := if code.length = 2 then py!"0" ++ code else code
  if code.length < 3 then .error .assertion
  else .ok (floatOf code)

/-- `Speed.__str__` (wind.py 154-158). -/
def speedStr (v : Option F64) : PyStr := numStrUnit v py!" kt"
def inMps (v : Option F64) : Option F64 := converted v Conv.KNOT_TO_MPS    -- 166-168
def inKph (v : Option F64) : Option F64 := converted v Conv.KNOT_TO_KPH    -- 171-173
def inMiph (v : Option F64) : Option F64 := converted v Conv.KNOT_TO_MIPH  -- 176-178

/-- `Speed.as_dict` (wind.py 180-184). -/
def speedDict (v : Option F64) : PyVal :=
  .dict [(py!"units", .str py!"knot"), (py!"speed", .ofFloat v)]

/-- `Wind._mps2kt` (wind.py 214-224). -/
def mps2kt (value : Option PyStr) : PyStr :=
  match value with
  | none => py!"///"
  | some s =>
    match floatOf s with
    | none => py!"///"
    | some x => floatRepr (x.mul Conv.MPS_TO_KNOT)

/-- The pattern of `re.sub(r"\s{2,}", " ", s)` (wind.py 209, weather.py 91, recent_weather.py 36). -/
def spaces2RE : RE := re! [r"\s{2,}"]

/-- `Wind.__str__` (wind.py 198-212). -/
def windStr (d : Direction) (v : Option F64) : PyStr :=
  let cardinal := d.cardinal.getD []
  let direction := if truthyO d.value then py!"(" ++ d.str ++ py!")" else d.str
  strip (spaces2RE.sub py!" " (cardinal ++ py!" " ++ direction ++ py!" " ++ speedStr v) 0)

/-! ### Time (time.py) -/

/-- `Time` (time.py 9-23). -/
structure Time where
  code : Option PyStr := none
  time : DT
deriving DecidableEq, Repr

/-- One reading of `datetime.utcnow()`: year and month (nothing else is used). -/
structure Now where
  year : Nat
  month : Nat
deriving DecidableEq, Repr

/-- `Time.__init__` without `time` (time.py 29-53). -/
def Time.new (now : Now) (code minute hour day : Option PyStr) (month year : Option Int) :
    Except Exc Time :=
  let year : Int := year.getD now.year
  let month : Int := month.getD now.month
  let s := intStr year ++ padInt 2 month ++ day.getD py!"01" ++ hour.getD py!"00" ++
    minute.getD py!"00"
  match strptime s with
  | .error e => .error e
  | .ok t => .ok ⟨groupCode code, t⟩

/-- `Time(time=t)` and `Time(code=c, time=t)` (time.py 24-27). -/
def Time.ofDT (t : DT) (code : Option PyStr := none) : Time := ⟨groupCode code, t⟩

/-- `Time.from_metar` (time.py 55-77). -/
def Time.fromMetar (now : Now) (m : Option Match) (year month : Option Int) : Except Exc Time :=
  match m with
  | none => Time.new now none none none none month year
  | some m => Time.new now (some m.string) (m.group .min) (m.group .hour) (m.group .day) month year

/-- `Time.__str__` (time.py 79-80). -/
def Time.str (t : Time) : PyStr := t.time.str

/-- `Time.as_dict` (time.py 112-117). -/
def Time.dict (t : Time) : List (PyStr × PyVal) :=
  dupdate [(py!"datetime", .str t.time.str)] (groupDict t.code)

/-- Truth value of a `Time`: `Group.__len__` (group.py 27-31). -/
def Time.truthy (t : Time) : Bool :=
  match t.code with
  | none => false
  | some c => c ≠ []

/-! ### Report type (type.py) and modifier (modifier.py) -/

/-- `TYPES` (type.py 6-10). -/
def typesTable : List (PyStr × PyStr) :=
  [(py!"METAR", py!"Meteorological Aerodrome Report"), (py!"SPECI", py!"Special Aerodrome Report"),
   (py!"TAF", py!"Terminal Aerodrome Forecast")]

structure ReportType where
  code : Option PyStr
  type_ : Option PyStr
deriving DecidableEq, Repr

/-- `ReportType.__init__` (type.py 16-18). -/
def ReportType.new (code : PyStr) : ReportType := ⟨groupCode (some code), dget typesTable code⟩
/-- `ReportType.__str__` (type.py 20-21). -/
def ReportType.str (t : ReportType) : PyStr := fmtO t.type_ ++ py!" (" ++ fmtO t.code ++ py!")"
/-- `ReportType.as_dict` (type.py 28-33). -/
def ReportType.dict (t : ReportType) : PyVal :=
  .dict (dupdate [(py!"type", .ofStr t.type_)] (groupDict t.code))

/-- `MODIFIERS` (modifier.py 9-17). -/
def modifiersTable : List (PyStr × PyStr) :=
  [(py!"COR", py!"Correction"), (py!"CORR", py!"Correction"), (py!"AMD", py!"Amendment"),
   (py!"NIL", py!"Missing report"), (py!"AUTO", py!"Automatic report"),
   (py!"TEST", py!"Testing report"), (py!"FINO", py!"Missing report")]

structure Modifier where
  code : Option PyStr
  description : Option PyStr
deriving DecidableEq, Repr

/-- `Modifier.__init__` (modifier.py 23-25). -/
def Modifier.new (code : Option PyStr) : Modifier := ⟨groupCode code, dgetO modifiersTable code⟩
/-- `Modifier.__str__` (modifier.py 27-31). -/
def Modifier.str (m : Modifier) : PyStr :=
  match m.description with
  | none => []
  | some d => lower d
/-- `Modifier.as_dict` (modifier.py 38-43). -/
def Modifier.dict (m : Modifier) : List (PyStr × PyVal) :=
  dupdate [(py!"modifier", .ofStr m.description)] (groupDict m.code)

/-! ### Station (station.py) and countries (database/countries.py) -/

/-- A row of the stations table: `[NAME, ICAO, IATA, SYNOP, LAT, LONG, ELEV, COUNTRY]`
(database/stations.py). -/
structure StationRow where
  name : PyStr
  icao : PyStr
  iata : PyStr
  synop : PyStr
  latitude : PyStr
  longitude : PyStr
  elevation : PyStr
  country : PyStr
deriving DecidableEq, Repr

/-- The tables of `aeromet_py/database`. -/
structure Database where
  stations : List StationRow
  countries : List (PyStr × PyStr)

/-- `Station` (station.py 14-35): the code and the row found, if any (`none` stands for the list of
eight `None`). -/
structure Station where
  code : Option PyStr
  row : Option StationRow
deriving DecidableEq, Repr

/-- `CODE_TYPES` (station.py 7-11) together with the column it selects. -/
def codeColumn (type : PyStr) : Option (StationRow → PyStr) :=
  if type = py!"ICAO" then some (·.icao)
  else if type = py!"IATA" then some (·.iata)
  else if type = py!"SYNOP" then some (·.synop)
  else none

/-- `Station._get_data` (station.py 30-35): first row whose column equals the code. With an unknown
`type` the index is `None` and `stn[None]` raises `TypeError` (if the table is not empty). -/
def stationData (db : Database) (code : PyStr) (column : Option (StationRow → PyStr)) :
    Except Exc (Option StationRow) :=
  match column with
  | some col => .ok (db.stations.find? fun r => code = col r)
  | none => if db.stations = [] then .ok none else .error .type

/-- `Station.__init__` (station.py 22-28). -/
def Station.new (db : Database) (code : Option PyStr) (type : PyStr) : Except Exc Station :=
  match code with
  | none => .ok ⟨none, none⟩
  | some c =>
    match stationData db c (codeColumn type) with
    | .error e => .error e
    | .ok row => .ok ⟨groupCode (some c), row⟩

/-- `Station.country` (station.py 80-83), `get_country` (database/countries.py 4-13). -/
def Station.country (db : Database) (s : Station) : Option PyStr :=
  dgetO db.countries (s.row.map (·.country))

/-- `Station.__str__` (station.py 37-43). -/
def Station.str (db : Database) (s : Station) : PyStr :=
  py!"Name: " ++ fmtO (s.row.map (·.name)) ++ py!" | Coordinates: " ++
    fmtO (s.row.map (·.latitude)) ++ py!" " ++ fmtO (s.row.map (·.longitude)) ++
    py!" | Elevation: " ++ fmtO (s.row.map (·.elevation)) ++ py!" m MSL | Country: " ++
    fmtO (s.country db)

/-- `Station.as_dict` (station.py 85-97). -/
def Station.dict (db : Database) (s : Station) : PyVal :=
  .dict (dupdate
    [(py!"name", .ofStr (s.row.map (·.name))), (py!"icao", .ofStr (s.row.map (·.icao))),
     (py!"iata", .ofStr (s.row.map (·.iata))), (py!"synop", .ofStr (s.row.map (·.synop))),
     (py!"latitude", .ofStr (s.row.map (·.latitude))),
     (py!"longitude", .ofStr (s.row.map (·.longitude))),
     (py!"elevation", .ofStr (s.row.map (·.elevation))), (py!"country", .ofStr (s.country db))]
    (groupDict s.code))

/-! ### Change indicator (change_indicator.py) -/

/-- `CHANGE_TRANSLATIONS` (change_indicator.py 8-14). -/
def changeTranslations : List (PyStr × PyStr) :=
  [(py!"NOSIG", py!"no significant changes"), (py!"BECMG", py!"becoming"),
   (py!"TEMPO", py!"temporary"), (py!"PROB30", py!"probability 30%"),
   (py!"PROB40", py!"probability 40%")]

/-- `CHANGE_TRANSLATIONS[k]`: `KeyError` if absent. -/
def translationOf (k : PyStr) : Except Exc PyStr :=
  match dget changeTranslations k with
  | some v => .ok v
  | none => .error .key

/-- `ChangeIndicator.__init__` with a match (change_indicator.py 26-36): code and translation. -/
def changeIndicator (m : Match) : Except Exc (Option PyStr × Option PyStr) :=
  match dget changeTranslations m.string with
  | some v => .ok (groupCode (some m.string), some v)
  | none =>
    if startsWith m.string py!"PROB" then
      match splitC 95 m.string with
      | a :: b :: _ => do
        let x ← translationOf a
        let y ← translationOf b
        return (groupCode (some m.string), some (x ++ py!" " ++ y))
      | [a] => do
        let _ ← translationOf a
        .error .index
      | [] => .error .index
    else .ok (groupCode (some m.string), none)

/-! ### Clouds (cloud.py) -/

/-- `SKY_COVER` (cloud.py 11-22). -/
def skyCover : List (PyStr × PyStr) :=
  [(py!"SKC", py!"clear"), (py!"CLR", py!"clear"), (py!"NSC", py!"clear"), (py!"NCD", py!"clear"),
   (py!"FEW", py!"a few"), (py!"SCT", py!"scattered"), (py!"BKN", py!"broken"),
   (py!"OVC", py!"overcast"), (py!"///", py!"undefined"), (py!"VV", py!"indefinite ceiling")]

/-- `CLOUD_TYPE` (cloud.py 24-41). -/
def cloudTypes : List (PyStr × PyStr) :=
  [(py!"AC", py!"altocumulus"), (py!"ACC", py!"altocumulus castellanus"),
   (py!"ACSL", py!"standing lenticulas altocumulus"), (py!"AS", py!"altostratus"),
   (py!"CB", py!"cumulonimbus"), (py!"CBMAM", py!"cumulonimbus mammatus"),
   (py!"CCSL", py!"standing lenticular cirrocumulus"), (py!"CC", py!"cirrocumulus"),
   (py!"CI", py!"cirrus"), (py!"CS", py!"cirrostratus"), (py!"CU", py!"cumulus"),
   (py!"NS", py!"nimbostratus"), (py!"SC", py!"stratocumulus"), (py!"ST", py!"stratus"),
   (py!"SCSL", py!"standing lenticular stratocumulus"), (py!"TCU", py!"towering cumulus")]

/-- `_set_oktas` (cloud.py 44-60). -/
def setOktas (code : PyStr) : PyStr :=
  if code = py!"FEW" then py!"1-2"
  else if code = py!"SCT" then py!"3-4"
  else if code = py!"BKN" then py!"5-7"
  else if code = py!"OVC" then py!"8"
  else if code = py!"NSC" ∨ code = py!"NCD" then py!"not specified"
  else py!"undefined"

/-- `Cloud` (cloud.py 66-82). -/
structure Cloud where
  code : Option PyStr
  cover : Option PyStr
  oktas : Option PyStr
  type : Option PyStr
  height : Option F64
deriving DecidableEq, Repr

/-- `Cloud.from_metar` with a match (cloud.py 94-119). -/
def Cloud.fromMetar (m : Match) : Except Exc Cloud := do
  let cover := (m.group .cover).getD []   -- always present in a match of CLOUD
  let heightText ← match m.group .height with
    | none => pure py!"////"
    | some h =>
      if h = py!"///" then pure py!"////"
      else do
        let x ← pyFloat (some (h ++ py!"00"))
        pure (fmtF 10 (x.mul Conv.FT_TO_M))
  return ⟨groupCode (some m.string), dget skyCover cover, some (setOktas cover),
    dgetO cloudTypes (m.group .type), distance (some heightText)⟩

def Cloud.heightInFeet (c : Cloud) : Option F64 := inFeet c.height   -- cloud.py 178-180

/-- `Cloud.__str__` (cloud.py 121-145). The branch 139-140 is unreachable (133 returned). -/
def Cloud.str (c : Cloud) : PyStr :=
  let feet := numStr c.heightInFeet
  if c.type.getD [] ≠ [] ∧ truthyO c.height then
    fmtO c.cover ++ py!" at " ++ feet ++ py!" feet of " ++ fmtO c.type
  else if truthyO c.height then fmtO c.cover ++ py!" at " ++ feet ++ py!" feet"
  else if c.cover = some py!"clear" ∨ c.cover = some py!"undefined" then fmtO c.cover
  else if c.cover = some py!"indefinite ceiling" then fmtO c.cover
  else fmtO c.cover ++ py!" at undefined height"

/-- `Cloud.as_dict` (cloud.py 182-191). -/
def Cloud.dict (c : Cloud) : PyVal :=
  .dict (dupdate [(py!"cover", .ofStr c.cover), (py!"oktas", .ofStr c.oktas),
    (py!"height_units", .str py!"meters"), (py!"height", .ofFloat c.height),
    (py!"type", .ofStr c.type)] (groupDict c.code))

/-- `CloudList.ceiling` (cloud.py 198-209): `None <= 1500.0` raises `TypeError`. -/
def ceiling : List Cloud → Except Exc Bool
  | [] => .ok false
  | c :: cs =>
    if c.oktas = some py!"5-7" ∨ c.oktas = some py!"8" then
      match c.heightInFeet with
      | none => .error .type
      | some h => if h.le (F64.lit 1500) then .ok true else ceiling cs
    else ceiling cs

/-! ### Flight rules (flight_rules.py) -/

/-- `FLIGHT_RULES` (flight_rules.py 8-14). -/
def flightRulesTable : List (PyStr × F64 × F64) :=
  [(py!"VLIFR", F64.lit 60, F64.lit 800), (py!"LIFR", F64.lit 150, F64.lit 1600),
   (py!"IFR", F64.lit 300, F64.lit 5000), (py!"MVFR", F64.lit 900, F64.lit 8000),
   (py!"VFR", F64.lit 40000, F64.lit 20000)]

/-- The cloud base used by `flight_rules` (flight_rules.py 44-49): height of the first layer that is
broken, overcast or an indefinite ceiling. -/
def rulesCeiling : List Cloud → Option F64
  | [] => none
  | c :: cs =>
    if c.cover = some py!"broken" ∨ c.cover = some py!"overcast" ∨
        c.cover = some py!"indefinite ceiling" then c.height
    else rulesCeiling cs

/-- Loop of `flight_rules` (flight_rules.py 55-66). -/
def rulesGo (prevailing ceil : Option F64) : List (PyStr × F64 × F64) → Option PyStr
  | [] => none
  | (name, r0, r1) :: t =>
    match prevailing, ceil with
    | some p, some c => if c.lt r0 || p.lt r1 then some name else rulesGo prevailing ceil t
    | some p, none => if p.lt r1 then some name else rulesGo prevailing ceil t
    | none, some c => if c.lt r0 then some name else rulesGo prevailing ceil t
    | none, none => some py!"VFR"

/-- `FlightRulesMixin.flight_rules` (flight_rules.py 40-66). -/
def flightRules (prevailing : Option F64) (clouds : List Cloud) : Option PyStr :=
  let ceil := rulesCeiling clouds
  if prevailing = none ∧ ceil = none then none
  else rulesGo prevailing ceil flightRulesTable

end Verif
