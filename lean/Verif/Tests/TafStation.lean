import Verif.Tests.Database

/-
The assertions of tests/taf/test_station.py, checked of the model. Generated by tools/tests2lean.py.
-/

namespace Verif.Tests

/-! `test_taf_station` (tests/taf/test_station.py 4-38) -/

example : ok (Taf.new testDb testClock
    py!"\n    TAF SEQM 231655Z 2318/2418 35012KT 9999 SCT030 BKN100\n        TEMPO 2320/2323 TS FEW023CB BKN026 BKN080\n        BECMG 2400/2401 02005KT FEW008 BKN026 BKN080\n        BECMG 2404/2406 VRB03KT 4000 BCFG BKN003 BKN020\n        BECMG 2412/2414 9999 SCT023 SCT100 TX20/2319Z TN11/2411Z\n    "
    ⟨none, none, false⟩) (fun r =>
    (same (.ofStr r.station.code) (.str py!"SEQM")) &&
    (same (.ofStr (r.station.row.map (·.name))) (.str py!"QUITO/NEW INTL")) &&
    (same (.ofStr (r.station.row.map (·.icao))) (.str py!"SEQM")) &&
    (same (.ofStr (r.station.row.map (·.iata))) (.str py!"None")) &&
    (same (.ofStr (r.station.row.map (·.synop))) (.str py!"None")) &&
    (same (.ofStr (r.station.row.map (·.latitude))) (.str py!"00.07S")) &&
    (same (.ofStr (r.station.row.map (·.longitude))) (.str py!"078.21W")) &&
    (same (.ofStr (r.station.row.map (·.elevation))) (.str py!"2400")) &&
    (same (.ofStr (r.station.country testDb)) (.str py!"Ecuador")) &&
    (same (.str (r.station.str testDb)) (.str py!"Name: QUITO/NEW INTL | Coordinates: 00.07S 078.21W | Elevation: 2400 m MSL | Country: Ecuador")) &&
    (same (r.station.dict testDb) (.dict [(py!"code", .str py!"SEQM"), (py!"country", .str py!"Ecuador"), (py!"elevation", .str py!"2400"), (py!"iata", .str py!"None"), (py!"icao", .str py!"SEQM"), (py!"latitude", .str py!"00.07S"), (py!"longitude", .str py!"078.21W"), (py!"name", .str py!"QUITO/NEW INTL"), (py!"synop", .str py!"None")]))) = true := by decide +kernel

end Verif.Tests
