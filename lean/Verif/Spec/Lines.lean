import Verif.Spec.Report

/-
Specification of the text shown for a report: one line for each decoded attribute, in a fixed
order, independent of the buffer the lines are collected in.
-/

namespace Verif.Spec

/-- A group was decoded at the position. -/
def has (c : List (PyStr × Nat)) (i : Nat) : Bool := c.any fun x => x.2 == i

/-- The line of an attribute, when its group was decoded. -/
def line (c : List (PyStr × Nat)) (i : Nat) (text : PyStr) : List PyStr :=
  if has c i then [text] else []

/-- Lines as a text: each is followed by a line feed. -/
def unlines (ls : List PyStr) : PyStr := ls.flatMap fun l => l ++ py!"\n"

/-- The lines of the body of a METAR; `ps` are the pressures decoded (the report keeps the last). -/
def metarLines (db : Database) (c : List (PyStr × Nat)) (ps : List MetarPressure) (r : Metar) :
    List PyStr :=
  line c 0 r.type.str ++ line c 1 (r.station.str db) ++ line c 2 r.time.str ++
  line c 3 r.modifier.str ++ line c 4 r.core.wind.str ++ line c 5 r.windVariation.str ++
  line c 6 r.core.prevailing.str ++ line c 7 r.minimumVisibility.str ++
  r.runwayRanges.list.map RunwayRange.str ++ r.core.weathers.list.map Weather.str ++
  r.core.clouds.list.map Cloud.str ++ line c 18 r.temperatures.str ++ ps.map MetarPressure.str ++
  line c 21 r.recentWeather.str ++ r.windshears.list.map Windshear.str ++ line c 25 r.seaState.str ++
  line c 26 r.runwayState.str

/-- The lines of a METAR trend. -/
def trendLines (c : List (PyStr × Nat)) (p : ChangePeriod) : List PyStr :=
  line c 0 p.indicator.str ++ line c 3 p.core.wind.str ++ line c 4 p.core.prevailing.str ++
  p.core.weathers.list.map Weather.str ++ p.core.clouds.list.map Cloud.str

/-- The lines of the body of a TAF; `ts` are the temperatures decoded, in the order of the text. -/
def tafLines (db : Database) (c : List (PyStr × Nat)) (ts : List TafTemperature) (r : Taf) :
    List PyStr :=
  line c 0 r.type.str ++ line c 1 r.modifier.str ++ line c 2 (r.station.str db) ++
  line c 3 r.time.str ++ line c 4 r.missing.mod.str ++ line c 5 r.valid.str ++
  line c 6 r.cancelled.str ++ line c 7 r.core.wind.str ++ line c 8 r.core.prevailing.str ++
  r.core.weathers.list.map Weather.str ++ r.core.clouds.list.map Cloud.str ++
  ts.map TafTemperature.str

end Verif.Spec
