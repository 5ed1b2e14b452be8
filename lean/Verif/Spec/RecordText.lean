import Verif.Spec.TrendRecord
import Verif.Spec.TafRecord
import Verif.Spec.GroupText
import Verif.Spec.Lines

/-
The text shown of a whole report, said from the record it was written from.
-/

namespace Verif.Spec

/-- Year, month, day, hour and minute; the seconds are always zero. -/
def instantText (t : DT) : PyStr :=
  padNat 4 t.year ++ py!"-" ++ padNat 2 t.month ++ py!"-" ++ padNat 2 t.day ++ py!" " ++
    padNat 2 t.hour ++ py!":" ++ padNat 2 t.minute ++ py!":00"

def typeText (speci : Bool) : PyStr :=
  if speci then py!"Special Aerodrome Report (SPECI)" else py!"Meteorological Aerodrome Report (METAR)"

/-- The words for a modifier. -/
def modifierWords : List (PyStr × PyStr) :=
  [(py!"COR", py!"correction"), (py!"CORR", py!"correction"), (py!"AMD", py!"amendment"),
   (py!"NIL", py!"missing report"), (py!"FINO", py!"missing report"), (py!"AUTO", py!"automatic report"),
   (py!"TEST", py!"testing report")]

/-- The name of a country is in the first row with its code. -/
def CountryShown (db : Database) (k t : PyStr) : Prop :=
  (∃ before after, db.countries = before ++ (k, t) :: after ∧ ∀ x ∈ before, x.1 ≠ k) ∨
    ((∀ x ∈ db.countries, x.1 ≠ k) ∧ t = py!"None")

/-- A station is shown by the first row with its code. -/
def StationShown (db : Database) (g t : PyStr) : Prop :=
  (∃ before row after country, db.stations = before ++ row :: after ∧ row.icao = g ∧
      (∀ x ∈ before, x.icao ≠ g) ∧ CountryShown db row.country country ∧
      t = py!"Name: " ++ row.name ++ py!" | Coordinates: " ++ row.latitude ++ py!" " ++ row.longitude ++
        py!" | Elevation: " ++ row.elevation ++ py!" m MSL | Country: " ++ country) ∨
  ((∀ x ∈ db.stations, x.icao ≠ g) ∧
    t = py!"Name: None | Coordinates: None None | Elevation: None m MSL | Country: None")

/-- The lines of the body of a METAR issued at `t`: one for each group, in the order of the code. -/
def MetarRecord.Shows (db : Database) (t : DT) (w : MetarRecord) (ls : List PyStr) : Prop :=
  ∃ station modifier wind variation vis minVis ranges pressures,
    StationShown db w.station station ∧
    Each (fun m s => (m, s) ∈ modifierWords) w.modifier.toList modifier ∧
    Each WindGroup.Shows w.wind.toList wind ∧ Each VariationGroup.Shows w.variation.toList variation ∧
    Each VisGroup.Shows w.vis.toList vis ∧ Each VisGroup.Shows w.minVis.toList minVis ∧
    Each RangeGroup.Shows w.ranges ranges ∧ Each PressGroup.Shows w.pressures pressures ∧
    ls = [typeText w.speci, station, instantText t] ++ modifier ++ wind ++ variation ++ vis ++ minVis ++
      ranges ++ w.weathers.map WeatherGroup.shows ++ w.clouds.map Layer.shows ++
      w.temps.toList.map TempGroup.shows ++ pressures ++ w.recent.toList.map RecentGroup.shows ++
      w.shears.map (fun s => s.group.shows) ++ w.sea.toList.map SeaGroup.shows ++
      w.state.toList.map RwyStateGroup.shows

/-- The opening of a trend: the instant AT, or else the instants FM and TL, which are the time of the
report and two hours later if not stated. -/
def TrendRecord.OpeningShown (t : DT) (w : TrendRecord) (s : PyStr) : Prop :=
  match w.last .at_ with
  | some g => ∃ u, g.Within t u ∧ s = w.kind.means ++ py!" at " ++ instantText u
  | none => ∃ f e,
      (match w.last .from_ with
        | some g => g.Within t f
        | none => f = t) ∧
      (match w.last .until_ with
        | some g => g.Within t e
        | none => After t 120 e) ∧
      s = w.kind.means ++ py!" from " ++ instantText f ++ py!" until " ++ instantText e

/-- The text of a trend of a report issued at `t`. -/
def TrendRecord.Shows (t : DT) (w : TrendRecord) (s : PyStr) : Prop :=
  ∃ opening wind vis, w.OpeningShown t opening ∧
    Each WindGroup.Shows w.conds.wind.toList wind ∧ Each VisGroup.Shows w.conds.vis.toList vis ∧
    s = strip (unlines ([opening] ++ wind ++ vis ++ w.conds.weathers.map WeatherGroup.shows ++
      w.conds.clouds.map Layer.shows))

/-! ### TAFs -/

/-- The words for the opening of a change; FM has none. -/
def ChangeKind.means : ChangeKind → PyStr
  | .tempo => py!"temporary"
  | .becmg => py!"becoming"
  | .prob forty also =>
    (if forty then py!"probability 40%" else py!"probability 30%") ++ if also then py!" temporary" else []
  | .fm _ => []

def periodText (f e : DT) : PyStr := py!"from " ++ instantText f ++ py!" until " ++ instantText e

/-- What is shown of a change of a report valid from `f` until `e`: not its conditions, and of an FM
change the period until the end of the report. -/
def TafChange.Shows (f e : DT) (c : TafChange) (s : PyStr) : Prop :=
  match c.kind, c.valid with
  | .fm g, _ => ∃ u, g.At f u ∧ s = periodText u e
  | k, some v => ∃ a b, Takes f v.fromDay (digitsVal v.fromHour) a ∧ Takes f v.untilDay (digitsVal v.untilHour) b ∧
      s = k.means ++ py!" " ++ periodText a b
  | k, none => s = k.means

def TafTempGroup.Shows (t : DT) (w : TafTempGroup) (s : PyStr) : Prop :=
  ∃ u, Takes t w.day (digitsVal w.hour) u ∧ s = celsius w.minus (digitsVal w.digits) ++ py!" at " ++ instantText u

/-- The lines of a TAF issued at `t`: one for each group of the body, in the order of the text, and one
for each change, followed by an empty one. -/
def TafRecord.Shows (db : Database) (t : DT) (w : TafRecord) (ls : List PyStr) : Prop :=
  ∃ station modifier f e wind vis temps changes,
    StationShown db w.station station ∧
    Each (fun m s => (m, s) ∈ modifierWords) w.modifier.toList modifier ∧
    (∀ g, w.valid = some g → Takes t g.fromDay (digitsVal g.fromHour) f ∧
      Takes t g.untilDay (digitsVal g.untilHour) e) ∧
    Each WindGroup.Shows w.conds.wind.toList wind ∧ Each VisGroup.Shows w.conds.vis.toList vis ∧
    Each (TafTempGroup.Shows t) w.temps temps ∧ Each (TafChange.Shows f e) w.changes changes ∧
    ls = [py!"Terminal Aerodrome Forecast (TAF)"] ++ modifier ++ [station, instantText t] ++
      (if w.missing then [py!"missing report"] else []) ++ w.valid.toList.map (fun _ => periodText f e) ++
      (if w.cancelled then [py!"cancelled"] else []) ++ wind ++ vis ++
      w.conds.weathers.map WeatherGroup.shows ++ w.conds.clouds.map Layer.shows ++ temps ++
      changes.map (· ++ py!"\n")

end Verif.Spec
