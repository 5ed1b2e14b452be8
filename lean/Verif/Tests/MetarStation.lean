import Verif.Tests.Database

/-
The assertions of tests/metar/test_station.py, checked of the model. Generated by tools/tests2lean.py.
-/

namespace Verif.Tests

/-! `test_metar_station` (tests/metar/test_station.py 4-33) -/

example : ok (Metar.new testDb testClock
    py!"METAR KJFK 122051Z 32004KT 10SM OVC065 M02/M15 A3031 RMK AO2 SLP264 T10171150 56004"
    ⟨none, none, false⟩) (fun r =>
    (same (.ofStr r.station.code) (.str py!"KJFK")) &&
    (same (.ofStr (r.station.row.map (·.name))) (.str py!"NY NYC/JFK ARPT")) &&
    (same (.ofStr (r.station.row.map (·.icao))) (.str py!"KJFK")) &&
    (same (.ofStr (r.station.row.map (·.iata))) (.str py!"JFK")) &&
    (same (.ofStr (r.station.row.map (·.synop))) (.str py!"74486")) &&
    (same (.ofStr (r.station.row.map (·.latitude))) (.str py!"40.38N")) &&
    (same (.ofStr (r.station.row.map (·.longitude))) (.str py!"073.46W")) &&
    (same (.ofStr (r.station.row.map (·.elevation))) (.str py!"9")) &&
    (same (.ofStr (r.station.country testDb)) (.str py!"United States of America (the)")) &&
    (same (.str (r.station.str testDb)) (.str py!"Name: NY NYC/JFK ARPT | Coordinates: 40.38N 073.46W | Elevation: 9 m MSL | Country: United States of America (the)")) &&
    (same (r.station.dict testDb) (.dict [(py!"code", .str py!"KJFK"), (py!"country", .str py!"United States of America (the)"), (py!"elevation", .str py!"9"), (py!"iata", .str py!"JFK"), (py!"icao", .str py!"KJFK"), (py!"latitude", .str py!"40.38N"), (py!"longitude", .str py!"073.46W"), (py!"name", .str py!"NY NYC/JFK ARPT"), (py!"synop", .str py!"74486")]))) = true := by decide +kernel

end Verif.Tests
