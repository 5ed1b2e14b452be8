import Verif.Tests.Database

/-
The assertions of tests/taf/test_weather.py, checked of the model. Generated by tools/tests2lean.py.
-/

namespace Verif.Tests

/-! `test_two_taf_weathers` (tests/taf/test_weather.py 7-53) -/

example : ok (Taf.new testDb testClock
    py!"\n    TAF RKNY 282300Z 0100/0206 27010KT 5000 +RA BR BKN015 TX11/0105Z TN01/0121Z\n        BECMG 0101/0102 28015G30KT SCT030\n        BECMG 0105/0106 34010KT\n        BECMG 0111/0112 27012KT\n        BECMG 0123/0124 27015G25KT\n        BECMG 0202/0203 27017G35KT\n    "
    ⟨none, none, false⟩) (fun r =>
    (same (ostrs (r.core.weathers.list.map (·.code))) (.list [.str py!"+RA", .str py!"BR"])) &&
    (same (.str (r.core.weathers.str fun x => x.str)) (.str py!"heavy rain | mist")) &&
    (ok (r.core.weathers.asDict fun x => .ok (x.dict)) fun v1 => same v1 (.dict [(py!"first", .dict [(py!"code", .str py!"+RA"), (py!"description", .none), (py!"intensity", .str py!"heavy"), (py!"obscuration", .none), (py!"other", .none), (py!"precipitation", .str py!"rain")]), (py!"second", .dict [(py!"code", .str py!"BR"), (py!"description", .none), (py!"intensity", .none), (py!"obscuration", .str py!"mist"), (py!"other", .none), (py!"precipitation", .none)])])) &&
    (ok (r.core.weathers.getItem 0) fun v2 => same (.ofStr v2.intensity) (.str py!"heavy")) &&
    (ok (r.core.weathers.getItem 0) fun v3 => same (.ofStr v3.description) (.none)) &&
    (ok (r.core.weathers.getItem 0) fun v4 => same (.ofStr v4.precipitation) (.str py!"rain")) &&
    (ok (r.core.weathers.getItem 0) fun v5 => same (.ofStr v5.obscuration) (.none)) &&
    (ok (r.core.weathers.getItem 0) fun v6 => same (.ofStr v6.other) (.none)) &&
    (ok (r.core.weathers.getItem 1) fun v7 => same (.ofStr v7.intensity) (.none)) &&
    (ok (r.core.weathers.getItem 1) fun v8 => same (.ofStr v8.description) (.none)) &&
    (ok (r.core.weathers.getItem 1) fun v9 => same (.ofStr v9.precipitation) (.none)) &&
    (ok (r.core.weathers.getItem 1) fun v10 => same (.ofStr v10.obscuration) (.str py!"mist")) &&
    (ok (r.core.weathers.getItem 1) fun v11 => same (.ofStr v11.other) (.none)) &&
    (raises (r.core.weathers.getItem 2) .index)) = true := by decide +kernel

end Verif.Tests
