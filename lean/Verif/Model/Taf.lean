import Verif.Model.TafGroups
import Verif.Model.Metar

/-
Model of `reports/taf.py`.
-/

namespace Verif

structure Taf where
  rawCode : PyStr
  body : PyStr
  changesCodes : List PyStr
  unparsed : List PyStr := []
  core : Core := {}
  type : ReportType
  station : Station
  time : Time
  modifier : Modifier
  valid : Valid
  missing : Missing
  cancelled : Cancelled
  maxTemperatures : GroupList TafTemperature := GroupList.new 2
  minTemperatures : GroupList TafTemperature := GroupList.new 2
  changes : GroupList ChangeForecasted := GroupList.new 8
deriving Repr

/-- `Taf._handle_sections` (taf.py 195-205): the body and the codes of the changes. -/
def tafSections (rawCode : PyStr) : PyStr × List PyStr :=
  let code := sanitizeChangeIndicator rawCode
  let code := if startsWith code py!"TAF" then replace code py!"TAF " py!"TAF_" else code
  match splitSentence code [py!"FM", py!"TEMPO", py!"BECMG", py!"PROB"] 0 .left with
  | [] => ([], [])       -- unreachable: `split` never returns an empty list
  | b :: cs => (replace b py!"TAF_" py!"TAF ", cs)

namespace Taf

/-- `Taf.sections` (taf.py 207-210). -/
def sections (r : Taf) : List PyStr :=
  [r.body, join py!" " (r.changesCodes.map fun c => replace c py!"_" py!" ")]

/-- `Taf.weather_changes` (taf.py 89-92). -/
def weatherChanges (r : Taf) : PyStr := r.sections.getD 1 []

def concat (r : Taf) (text : PyStr) : Taf := { r with core := r.core.concat text }

/-- `Report._handle_type` (report.py 42-45). -/
def handleType (m : Match) (r : Taf) : Except Exc Taf :=
  let t := ReportType.new m.string
  .ok ({ r with type := t }.concat t.str)

/-- `ModifierMixin._handle_modifier` (modifier.py 52-55). -/
def handleModifier (m : Match) (r : Taf) : Except Exc Taf :=
  let x := Modifier.new (some m.string)
  .ok ({ r with modifier := x }.concat x.str)

/-- `Report._handle_station` (report.py 52-55). -/
def handleStation (db : Database) (m : Match) (r : Taf) : Except Exc Taf := do
  let s ← Station.new db (some m.string) py!"ICAO"
  return { r with station := s }.concat (s.str db)

/-- `Taf._handle_time` (taf.py 94-97). -/
def handleTime (now : Now) (a : Args) (m : Match) (r : Taf) : Except Exc Taf := do
  let t ← Time.fromMetar now (some m) a.year a.month
  return { r with time := t }.concat t.str

/-- `Taf._handle_missing` (taf.py 99-102); `str` of a `Missing` is that of `Modifier`. -/
def handleMissing (m : Match) (r : Taf) : Except Exc Taf :=
  let x := Missing.new (some m.string)
  .ok ({ r with missing := x }.concat x.mod.str)

/-- `TafValidMixin._handle_valid_period` (valid.py 106-109). -/
def handleValid (m : Match) (r : Taf) : Except Exc Taf := do
  let v ← Valid.fromTaf (some m) r.time.time
  return { r with valid := v }.concat v.str

/-- `Taf._handle_cancelled` (taf.py 109-112). -/
def handleCancelled (m : Match) (r : Taf) : Except Exc Taf :=
  let x := Cancelled.new (some m)
  .ok ({ r with cancelled := x }.concat x.str)

/-- `Taf._handle_temperature` (taf.py 119-127). -/
def handleTemperature (m : Match) (r : Taf) : Except Exc Taf := do
  let t ← TafTemperature.new m r.time.time
  if m.group .type = some py!"X" then do
    let l ← r.maxTemperatures.add t
    return { r with maxTemperatures := l }.concat t.str
  else do
    let l ← r.minTemperatures.add t
    return { r with minTemperatures := l }.concat t.str

/-- `Taf._handle_change_forecasted` (taf.py 139-143). `str(cf)` also resets the buffer of `cf`,
which is already in the list. -/
def handleChange (code : PyStr) (r : Taf) : Except Exc Taf := do
  let cf ← ChangeForecasted.new code r.valid
  let l ← addChange r.changes cf
  let (text, cf') := cf.str
  return { r with changes := { l with list := l.list.dropLast ++ [cf'] } }.concat text

def lift (h : Match → Core → Except Exc Core) : Match → Taf → Except Exc Taf :=
  liftCore (·.core) (fun r c => { r with core := c }) h

/-- The handlers of `Taf._parse_body` (taf.py 152-173). -/
def handlers (db : Database) (now : Now) (a : Args) : List (Handler Taf) :=
  [⟨MetarRegExp.TYPE, handleType⟩,
   ⟨TafRegExp.AMD_COR, handleModifier⟩,
   ⟨MetarRegExp.STATION, handleStation db⟩,
   ⟨MetarRegExp.TIME, handleTime now a⟩,
   ⟨TafRegExp.NIL, handleMissing⟩,
   ⟨TafRegExp.VALID, handleValid⟩,
   ⟨TafRegExp.CANCELLED, handleCancelled⟩,
   ⟨TafRegExp.WIND, lift Core.handleWind⟩,
   ⟨TafRegExp.VISIBILITY, lift Core.handlePrevailing⟩,
   ⟨MetarRegExp.WEATHER, lift Core.handleWeather⟩,
   ⟨MetarRegExp.WEATHER, lift Core.handleWeather⟩,
   ⟨MetarRegExp.WEATHER, lift Core.handleWeather⟩,
   ⟨MetarRegExp.CLOUD, lift Core.handleCloud⟩,
   ⟨MetarRegExp.CLOUD, lift Core.handleCloud⟩,
   ⟨MetarRegExp.CLOUD, lift Core.handleCloud⟩,
   ⟨MetarRegExp.CLOUD, lift Core.handleCloud⟩,
   ⟨TafRegExp.TEMPERATURE, handleTemperature⟩,
   ⟨TafRegExp.TEMPERATURE, handleTemperature⟩,
   ⟨TafRegExp.TEMPERATURE, handleTemperature⟩,
   ⟨TafRegExp.TEMPERATURE, handleTemperature⟩]

/-- `Taf._parse_body` (taf.py 150-177). -/
def parseBody (db : Database) (now : Now) (a : Args) (r : Taf) : Except Exc Taf := do
  let (r, un) ← parseSection (handlers db now a) (sanitizeVisibility r.body) r
  return { r with unparsed := r.unparsed ++ un }

/-- First loop of `Taf._parse_changes_forecasted` (taf.py 180-182). -/
def changesGo : List PyStr → Taf → Except Exc Taf
  | [], r => .ok r
  | c :: cs, r =>
    if c ≠ [] then do
      let r ← handleChange c r
      changesGo cs r
    else changesGo cs r

/-- `Taf._parse_changes_forecasted` (taf.py 179-193). -/
def parseChanges (a : Args) (r : Taf) : Except Exc Taf := do
  let r ← changesGo r.changesCodes r
  let (cps, cl) := r.changes.iter
  let r := { r with changes := cl, unparsed := r.unparsed ++ cps.flatMap ChangeForecasted.unparsed }
  if r.unparsed ≠ [] ∧ a.truncate then
    throw (Exc.parser (Metar.errorMessage r.unparsed r.rawCode))
  return r

/-- `Taf.__init__` (taf.py 44-82) with `Report.__init__` (report.py 16-35). The clock is read by
`TimeMixin.__init__` (reading 0) and by the time handler (reading 1). -/
def new (db : Database) (clock : Clock) (code : PyStr) (a : Args) : Except Exc Taf := do
  if code = [] then throw Exc.assertion
  let raw := normalizeCode code
  let time ← Time.new (clock 0) none none none none none none
  let ty := ReportType.new (upper py!"TAF")
  let st ← Station.new db none []
  let (b, cs) := tafSections raw
  let v ← Valid.fromTaf none time.time
  let r : Taf :=
    { rawCode := raw, body := b, changesCodes := cs, type := ty, station := st, time := time,
      modifier := Modifier.new none, valid := v, missing := Missing.new none,
      cancelled := Cancelled.new none }
  let r ← parseBody db (clock 1) a r
  parseChanges a r

/-- `str(taf)` (string_attribute.py 18-19). -/
def str (r : Taf) : PyStr := r.core.str

/-- `Taf.as_dict` (taf.py 212-229) with `Report.as_dict` (report.py 88-97). -/
def dict (db : Database) (r : Taf) : Except Exc PyVal := do
  let ws ← r.core.weathers.asDict fun x => .ok x.dict
  let cs ← r.core.clouds.asDict fun x => .ok x.dict
  let mx ← r.maxTemperatures.asDict fun x => .ok x.dict
  let mn ← r.minTemperatures.asDict fun x => .ok x.dict
  let ch ← r.changes.asDict fun x => .ok x.dict.1
  return .dict (dupdate
    [(py!"code", .str r.rawCode), (py!"sections", .list (r.sections.map .str)),
     (py!"unparsed_groups", .list (r.unparsed.map .str)), (py!"type_", r.type.dict),
     (py!"station", r.station.dict db), (py!"time", .dict r.time.dict)]
    [(py!"modifier", .dict r.modifier.dict), (py!"missing", r.missing.dict),
     (py!"valid", r.valid.dict), (py!"cancelled", r.cancelled.dict),
     (py!"wind", r.core.wind.dict), (py!"prevailing_visibility", r.core.prevailing.dictPrev),
     (py!"weathers", ws), (py!"clouds", cs), (py!"max_temperatures", mx),
     (py!"min_temperatures", mn), (py!"changes_forecasted", ch)])

end Taf

end Verif
