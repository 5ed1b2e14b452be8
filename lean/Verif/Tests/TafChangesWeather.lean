import Verif.Tests.Database

/-
The assertions of tests/taf/test_changes_weather.py, checked of the model. Generated by tools/tests2lean.py.
-/

namespace Verif.Tests

/-! `test_changes_weather` (tests/taf/test_changes_weather.py 6-47) -/

example : ok (Taf.new testDb testClock
    py!"\n    TAF OMDB 281700Z 2818/3000 26010KT CAVOK\n        BECMG 2818/2820 20005KT 5000 DS\n        BECMG 2904/2906 29012KT\n        BECMG 2916/2918 18005KT\n    "
    ⟨none, none, false⟩) (fun r =>
    (ok (r.changes.getItem 0) fun v1 => same (ostrs (v1.core.weathers.list.map (·.code))) (.list [.str py!"DS"])) &&
    (ok (r.changes.getItem 0) fun v1 => same (.str (v1.core.weathers.str fun x => x.str)) (.str py!"dust storm")) &&
    (ok (r.changes.getItem 0) fun v1 => ok (v1.core.weathers.asDict fun x => .ok (x.dict)) fun v2 => same v2 (.dict [(py!"first", .dict [(py!"code", .str py!"DS"), (py!"description", .none), (py!"intensity", .none), (py!"obscuration", .none), (py!"other", .str py!"dust storm"), (py!"precipitation", .none)])])) &&
    (ok (r.changes.getItem 0) fun v1 => ok (v1.core.weathers.getItem 0) fun v3 => same (.ofStr v3.intensity) (.none)) &&
    (ok (r.changes.getItem 0) fun v1 => ok (v1.core.weathers.getItem 0) fun v4 => same (.ofStr v4.description) (.none)) &&
    (ok (r.changes.getItem 0) fun v1 => ok (v1.core.weathers.getItem 0) fun v5 => same (.ofStr v5.precipitation) (.none)) &&
    (ok (r.changes.getItem 0) fun v1 => ok (v1.core.weathers.getItem 0) fun v6 => same (.ofStr v6.obscuration) (.none)) &&
    (ok (r.changes.getItem 0) fun v1 => ok (v1.core.weathers.getItem 0) fun v7 => same (.ofStr v7.other) (.str py!"dust storm")) &&
    (ok (r.changes.getItem 0) fun v1 => raises (v1.core.weathers.getItem 1) .index) &&
    (ok (r.changes.getItem 1) fun v9 => same (ostrs (v9.core.weathers.list.map (·.code))) (.list [])) &&
    (ok (r.changes.getItem 1) fun v9 => same (.str (v9.core.weathers.str fun x => x.str)) (.str [])) &&
    (ok (r.changes.getItem 1) fun v9 => ok (v9.core.weathers.asDict fun x => .ok (x.dict)) fun v10 => same v10 (.dict [])) &&
    (ok (r.changes.getItem 1) fun v9 => raises (v9.core.weathers.getItem 0) .index)) = true := by decide +kernel

end Verif.Tests
