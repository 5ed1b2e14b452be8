import Verif.Tests.Database

/-
The assertions of tests/taf/test_wind.py, checked of the model. Generated by tools/tests2lean.py.
-/

namespace Verif.Tests

/-! `test_wind_in_mps` (tests/taf/test_wind.py 6-38) -/

example : ok (Taf.new testDb testClock
    py!"\n    TAF ULAA 281700Z 2818/0118 24004G09MPS 9999 SCT016\n        TEMPO 2818/2823 23005G13MPS 6000 -SHSN FEW007 BKN016CB\n        FM282300 22003G10MPS 6000 FEW005 BKN016\n        TEMPO 0102/0115 18003MPS\n    "
    ⟨none, none, false⟩) (fun r =>
    (same (.ofStr r.core.wind.code) (.str py!"24004G09MPS")) &&
    (same (.ofStr (r.core.wind.direction.cardinal)) (.str py!"WSW")) &&
    (same (.ofFloat r.core.wind.direction.value) (num 240 1)) &&
    (same (.ofFloat (r.core.wind.direction.inRadians)) (num 4716158501352293 1125899906842624)) &&
    (same (.bool r.core.wind.direction.variable_) (.bool false)) &&
    (same (.ofFloat r.core.wind.speed) (num 4377148703726389 562949953421312)) &&
    (same (.ofFloat (inMps r.core.wind.speed)) (num 4 1)) &&
    (same (.ofFloat (inKph r.core.wind.speed)) (num 8106479399301273 562949953421312)) &&
    (same (.ofFloat r.core.wind.gust) (num 1231073072923047 70368744177664)) &&
    (approx (.ofFloat (inMps r.core.wind.gust)) (mkRat (9) 1) (mkRat (4722366482869645) 4722366482869645213696)) &&
    (same (.ofFloat (inMiph r.core.wind.gust)) (num 88543391928649 4398046511104)) &&
    (same (.str r.core.wind.str) (.str py!"WSW (240.0°) 7.8 kt gust of 17.5 kt")) &&
    (same r.core.wind.dict (.dict [(py!"code", .str py!"24004G09MPS"), (py!"direction", .dict [(py!"cardinal", .str py!"WSW"), (py!"direction", num 240 1), (py!"units", .str py!"degrees"), (py!"variable", .bool false)]), (py!"gust", .dict [(py!"speed", num 1231073072923047 70368744177664), (py!"units", .str py!"knot")]), (py!"speed", .dict [(py!"speed", num 4377148703726389 562949953421312), (py!"units", .str py!"knot")])]))) = true := by decide +kernel

end Verif.Tests
