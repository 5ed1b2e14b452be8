import Verif.Tests.Database

/-
The assertions of tests/metar/test_weather.py, checked of the model. Generated by tools/tests2lean.py.
-/

namespace Verif.Tests

/-! `test_one_weather` (tests/metar/test_weather.py 7-30) -/

example : ok (Metar.new testDb testClock
    py!"METAR UUDD 190430Z 35004MPS 8000 -SN FEW012 M01/M03 Q1009 R32L/590240 NOSIG"
    ⟨none, none, false⟩) (fun r =>
    (same (ostrs (r.core.weathers.list.map (·.code))) (.list [.str py!"-SN"])) &&
    (same (.str (r.core.weathers.str fun x => x.str)) (.str py!"light snow")) &&
    (ok (r.core.weathers.getItem 0) fun v1 => same (.ofStr v1.intensity) (.str py!"light")) &&
    (ok (r.core.weathers.getItem 0) fun v2 => same (.ofStr v2.description) (.none)) &&
    (ok (r.core.weathers.getItem 0) fun v3 => same (.ofStr v3.precipitation) (.str py!"snow")) &&
    (ok (r.core.weathers.getItem 0) fun v4 => same (.ofStr v4.obscuration) (.none)) &&
    (ok (r.core.weathers.getItem 0) fun v5 => same (.ofStr v5.other) (.none)) &&
    (ok (r.core.weathers.getItem 0) fun v6 => same v6.dict (.dict [(py!"code", .str py!"-SN"), (py!"description", .none), (py!"intensity", .str py!"light"), (py!"obscuration", .none), (py!"other", .none), (py!"precipitation", .str py!"snow")])) &&
    (raises (r.core.weathers.getItem 1) .index)) = true := by decide +kernel

/-! `test_two_weathers` (tests/metar/test_weather.py 33-71) -/

example : ok (Metar.new testDb testClock
    py!"METAR MRLM 191300Z 22005KT 6000 +DZ VCSH FEW010TCU OVC070 24/23 A2991 RERA"
    ⟨none, none, false⟩) (fun r =>
    (same (ostrs (r.core.weathers.list.map (·.code))) (.list [.str py!"+DZ", .str py!"VCSH"])) &&
    (same (.str (r.core.weathers.str fun x => x.str)) (.str py!"heavy drizzle | nearby showers")) &&
    (ok (r.core.weathers.getItem 0) fun v1 => same (.ofStr v1.intensity) (.str py!"heavy")) &&
    (ok (r.core.weathers.getItem 0) fun v2 => same (.ofStr v2.description) (.none)) &&
    (ok (r.core.weathers.getItem 0) fun v3 => same (.ofStr v3.precipitation) (.str py!"drizzle")) &&
    (ok (r.core.weathers.getItem 0) fun v4 => same (.ofStr v4.obscuration) (.none)) &&
    (ok (r.core.weathers.getItem 0) fun v5 => same (.ofStr v5.other) (.none)) &&
    (ok (r.core.weathers.getItem 0) fun v6 => same v6.dict (.dict [(py!"code", .str py!"+DZ"), (py!"description", .none), (py!"intensity", .str py!"heavy"), (py!"obscuration", .none), (py!"other", .none), (py!"precipitation", .str py!"drizzle")])) &&
    (ok (r.core.weathers.getItem 1) fun v7 => same (.ofStr v7.intensity) (.str py!"nearby")) &&
    (ok (r.core.weathers.getItem 1) fun v8 => same (.ofStr v8.description) (.str py!"showers")) &&
    (ok (r.core.weathers.getItem 1) fun v9 => same (.ofStr v9.precipitation) (.none)) &&
    (ok (r.core.weathers.getItem 1) fun v10 => same (.ofStr v10.obscuration) (.none)) &&
    (ok (r.core.weathers.getItem 1) fun v11 => same (.ofStr v11.other) (.none)) &&
    (ok (r.core.weathers.getItem 1) fun v12 => same v12.dict (.dict [(py!"code", .str py!"VCSH"), (py!"description", .str py!"showers"), (py!"intensity", .str py!"nearby"), (py!"obscuration", .none), (py!"other", .none), (py!"precipitation", .none)])) &&
    (raises (r.core.weathers.getItem 2) .index)) = true := by decide +kernel

/-! `test_three_weathers` (tests/metar/test_weather.py 74-123) -/

example : ok (Metar.new testDb testClock
    py!"METAR BIBD 191100Z 03002KT 5000 -RA BR VCTS SCT008CB OVC020 04/03 Q1013"
    ⟨none, none, false⟩) (fun r =>
    (same (ostrs (r.core.weathers.list.map (·.code))) (.list [.str py!"-RA", .str py!"BR", .str py!"VCTS"])) &&
    (same (.str (r.core.weathers.str fun x => x.str)) (.str py!"light rain | mist | nearby thunderstorm")) &&
    (ok (r.core.weathers.getItem 0) fun v1 => same (.ofStr v1.intensity) (.str py!"light")) &&
    (ok (r.core.weathers.getItem 0) fun v2 => same (.ofStr v2.description) (.none)) &&
    (ok (r.core.weathers.getItem 0) fun v3 => same (.ofStr v3.precipitation) (.str py!"rain")) &&
    (ok (r.core.weathers.getItem 0) fun v4 => same (.ofStr v4.obscuration) (.none)) &&
    (ok (r.core.weathers.getItem 0) fun v5 => same (.ofStr v5.other) (.none)) &&
    (ok (r.core.weathers.getItem 0) fun v6 => same v6.dict (.dict [(py!"code", .str py!"-RA"), (py!"description", .none), (py!"intensity", .str py!"light"), (py!"obscuration", .none), (py!"other", .none), (py!"precipitation", .str py!"rain")])) &&
    (ok (r.core.weathers.getItem 1) fun v7 => same (.ofStr v7.intensity) (.none)) &&
    (ok (r.core.weathers.getItem 1) fun v8 => same (.ofStr v8.description) (.none)) &&
    (ok (r.core.weathers.getItem 1) fun v9 => same (.ofStr v9.precipitation) (.none)) &&
    (ok (r.core.weathers.getItem 1) fun v10 => same (.ofStr v10.obscuration) (.str py!"mist")) &&
    (ok (r.core.weathers.getItem 1) fun v11 => same (.ofStr v11.other) (.none)) &&
    (ok (r.core.weathers.getItem 1) fun v12 => same v12.dict (.dict [(py!"code", .str py!"BR"), (py!"description", .none), (py!"intensity", .none), (py!"obscuration", .str py!"mist"), (py!"other", .none), (py!"precipitation", .none)])) &&
    (ok (r.core.weathers.getItem 2) fun v13 => same (.ofStr v13.intensity) (.str py!"nearby")) &&
    (ok (r.core.weathers.getItem 2) fun v14 => same (.ofStr v14.description) (.str py!"thunderstorm")) &&
    (ok (r.core.weathers.getItem 2) fun v15 => same (.ofStr v15.precipitation) (.none)) &&
    (ok (r.core.weathers.getItem 2) fun v16 => same (.ofStr v16.obscuration) (.none)) &&
    (ok (r.core.weathers.getItem 2) fun v17 => same (.ofStr v17.other) (.none)) &&
    (ok (r.core.weathers.getItem 2) fun v18 => same v18.dict (.dict [(py!"code", .str py!"VCTS"), (py!"description", .str py!"thunderstorm"), (py!"intensity", .str py!"nearby"), (py!"obscuration", .none), (py!"other", .none), (py!"precipitation", .none)]))) = true := by decide +kernel

/-! `test_no_weathers` (tests/metar/test_weather.py 126-138) -/

example : ok (Metar.new testDb testClock
    py!"METAR LIRG 211755Z 27003KT CAVOK 24/14 Q1020 RMK FEW FEW200 MON NE LIB NC VIS MIN 9999 BLU"
    ⟨none, none, false⟩) (fun r =>
    (same (ostrs (r.core.weathers.list.map (·.code))) (.list [])) &&
    (same (.str (r.core.weathers.str fun x => x.str)) (.str [])) &&
    (ok (r.core.weathers.asDict fun x => .ok (x.dict)) fun v1 => same v1 (.dict [])) &&
    (raises (r.core.weathers.getItem 0) .index) &&
    (raises (r.core.weathers.getItem 1) .index) &&
    (raises (r.core.weathers.getItem 2) .index)) = true := by decide +kernel

/-! `test_try_to_get_item_4` (tests/metar/test_weather.py 141-177) -/

example : ok (Metar.new testDb testClock
    py!"METAR SCVM 060000Z 28007KT 250V310 9999 RA BR VCTS SCT016CB 16/13 Q1014"
    ⟨none, none, false⟩) (fun r =>
    (same (ostrs (r.core.weathers.list.map (·.code))) (.list [.str py!"RA", .str py!"BR", .str py!"VCTS"])) &&
    (same (.str (r.core.weathers.str fun x => x.str)) (.str py!"rain | mist | nearby thunderstorm")) &&
    (ok (r.core.weathers.asDict fun x => .ok (x.dict)) fun v1 => same v1 (.dict [(py!"first", .dict [(py!"code", .str py!"RA"), (py!"description", .none), (py!"intensity", .none), (py!"obscuration", .none), (py!"other", .none), (py!"precipitation", .str py!"rain")]), (py!"second", .dict [(py!"code", .str py!"BR"), (py!"description", .none), (py!"intensity", .none), (py!"obscuration", .str py!"mist"), (py!"other", .none), (py!"precipitation", .none)]), (py!"third", .dict [(py!"code", .str py!"VCTS"), (py!"description", .str py!"thunderstorm"), (py!"intensity", .str py!"nearby"), (py!"obscuration", .none), (py!"other", .none), (py!"precipitation", .none)])])) &&
    (raises (r.core.weathers.getItem 3) .range)) = true := by decide +kernel

end Verif.Tests
