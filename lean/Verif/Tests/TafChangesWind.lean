import Verif.Tests.Database

/-
The assertions of tests/taf/test_changes_wind.py, checked of the model. Generated by tools/tests2lean.py.
-/

namespace Verif.Tests

/-! `test_three_wind_changes` (tests/taf/test_changes_wind.py 6-89) -/

example : ok (Taf.new testDb testClock
    py!"\n    TAF OPRK 262145Z 2700/2718 23005KT 3000 FU NSC TN18/2701Z TX40/2710Z\n        FM270700 23010KT 5000 HZ NSC\n        FM271200 11005KT 9999 SCT020\n        PROB30 RA\n    "
    ⟨none, none, false⟩) (fun r =>
    (ok (r.changes.getItem 0) fun v1 => same (.ofStr v1.core.wind.code) (.str py!"23010KT")) &&
    (ok (r.changes.getItem 0) fun v1 => same (.ofStr (v1.core.wind.direction.cardinal)) (.str py!"SW")) &&
    (ok (r.changes.getItem 0) fun v1 => same (.ofFloat v1.core.wind.direction.value) (num 230 1)) &&
    (ok (r.changes.getItem 0) fun v1 => same (.ofFloat (v1.core.wind.direction.inRadians)) (num 4519651897129281 1125899906842624)) &&
    (ok (r.changes.getItem 0) fun v1 => same (.bool v1.core.wind.direction.variable_) (.bool false)) &&
    (ok (r.changes.getItem 0) fun v1 => same (.ofFloat v1.core.wind.speed) (num 10 1)) &&
    (ok (r.changes.getItem 0) fun v1 => same (.ofFloat (inMps v1.core.wind.speed)) (num 5792129470717059 1125899906842624)) &&
    (ok (r.changes.getItem 0) fun v1 => same (.ofFloat (inKph v1.core.wind.speed)) (num 5212916568681349 281474976710656)) &&
    (ok (r.changes.getItem 0) fun v1 => same (.ofFloat v1.core.wind.gust) (.none)) &&
    (ok (r.changes.getItem 0) fun v1 => same (.ofFloat (inMps v1.core.wind.gust)) (.none)) &&
    (ok (r.changes.getItem 0) fun v1 => same (.ofFloat (inMiph v1.core.wind.gust)) (.none)) &&
    (ok (r.changes.getItem 0) fun v1 => same (.str v1.core.wind.str) (.str py!"SW (230.0°) 10.0 kt")) &&
    (ok (r.changes.getItem 0) fun v1 => same v1.core.wind.dict (.dict [(py!"code", .str py!"23010KT"), (py!"direction", .dict [(py!"cardinal", .str py!"SW"), (py!"direction", num 230 1), (py!"units", .str py!"degrees"), (py!"variable", .bool false)]), (py!"gust", .dict [(py!"speed", .none), (py!"units", .str py!"knot")]), (py!"speed", .dict [(py!"speed", num 10 1), (py!"units", .str py!"knot")])])) &&
    (ok (r.changes.getItem 1) fun v2 => same (.ofStr v2.core.wind.code) (.str py!"11005KT")) &&
    (ok (r.changes.getItem 1) fun v2 => same (.ofStr (v2.core.wind.direction.cardinal)) (.str py!"ESE")) &&
    (ok (r.changes.getItem 1) fun v2 => same (.ofFloat v2.core.wind.direction.value) (num 110 1)) &&
    (ok (r.changes.getItem 1) fun v2 => same (.ofFloat (v2.core.wind.direction.inRadians)) (num 4323145292906269 2251799813685248)) &&
    (ok (r.changes.getItem 1) fun v2 => same (.bool v2.core.wind.direction.variable_) (.bool false)) &&
    (ok (r.changes.getItem 1) fun v2 => same (.ofFloat v2.core.wind.speed) (num 5 1)) &&
    (ok (r.changes.getItem 1) fun v2 => same (.ofFloat (inMps v2.core.wind.speed)) (num 5792129470717059 2251799813685248)) &&
    (ok (r.changes.getItem 1) fun v2 => same (.ofFloat (inKph v2.core.wind.speed)) (num 5212916568681349 562949953421312)) &&
    (ok (r.changes.getItem 1) fun v2 => same (.ofFloat v2.core.wind.gust) (.none)) &&
    (ok (r.changes.getItem 1) fun v2 => same (.ofFloat (inMps v2.core.wind.gust)) (.none)) &&
    (ok (r.changes.getItem 1) fun v2 => same (.ofFloat (inMiph v2.core.wind.gust)) (.none)) &&
    (ok (r.changes.getItem 1) fun v2 => same (.str v2.core.wind.str) (.str py!"ESE (110.0°) 5.0 kt")) &&
    (ok (r.changes.getItem 1) fun v2 => same v2.core.wind.dict (.dict [(py!"code", .str py!"11005KT"), (py!"direction", .dict [(py!"cardinal", .str py!"ESE"), (py!"direction", num 110 1), (py!"units", .str py!"degrees"), (py!"variable", .bool false)]), (py!"gust", .dict [(py!"speed", .none), (py!"units", .str py!"knot")]), (py!"speed", .dict [(py!"speed", num 5 1), (py!"units", .str py!"knot")])])) &&
    (ok (r.changes.getItem 2) fun v3 => same (.ofStr v3.core.wind.code) (.none)) &&
    (ok (r.changes.getItem 2) fun v3 => same (.ofStr (v3.core.wind.direction.cardinal)) (.none)) &&
    (ok (r.changes.getItem 2) fun v3 => same (.ofFloat v3.core.wind.direction.value) (.none)) &&
    (ok (r.changes.getItem 2) fun v3 => same (.ofFloat (v3.core.wind.direction.inRadians)) (.none)) &&
    (ok (r.changes.getItem 2) fun v3 => same (.bool v3.core.wind.direction.variable_) (.bool false)) &&
    (ok (r.changes.getItem 2) fun v3 => same (.ofFloat v3.core.wind.speed) (.none)) &&
    (ok (r.changes.getItem 2) fun v3 => same (.ofFloat (inMps v3.core.wind.speed)) (.none)) &&
    (ok (r.changes.getItem 2) fun v3 => same (.ofFloat (inKph v3.core.wind.speed)) (.none)) &&
    (ok (r.changes.getItem 2) fun v3 => same (.ofFloat v3.core.wind.gust) (.none)) &&
    (ok (r.changes.getItem 2) fun v3 => same (.ofFloat (inMps v3.core.wind.gust)) (.none)) &&
    (ok (r.changes.getItem 2) fun v3 => same (.ofFloat (inMiph v3.core.wind.gust)) (.none)) &&
    (ok (r.changes.getItem 2) fun v3 => same (.str v3.core.wind.str) (.str [])) &&
    (ok (r.changes.getItem 2) fun v3 => same v3.core.wind.dict (.dict [(py!"code", .none), (py!"direction", .dict [(py!"cardinal", .none), (py!"direction", .none), (py!"units", .str py!"degrees"), (py!"variable", .bool false)]), (py!"gust", .dict [(py!"speed", .none), (py!"units", .str py!"knot")]), (py!"speed", .dict [(py!"speed", .none), (py!"units", .str py!"knot")])]))) = true := by decide +kernel

end Verif.Tests
