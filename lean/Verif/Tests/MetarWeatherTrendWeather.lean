import Verif.Tests.Database

/-
The assertions of tests/metar/test_weather_trend_weather.py, checked of the model. Generated by tools/tests2lean.py.
-/

namespace Verif.Tests

/-! `test_one_weather_trend_weather` (tests/metar/test_weather_trend_weather.py 10-52) -/

example : ok (Metar.new testDb testClock
    py!"SPECI UUDD 190430Z 35004MPS 9999 FEW020 M01/M03 Q1009 R32L/590240 TEMPO TL0600 5000 +SN SCT012"
    ⟨some 2020, some 10, false⟩) (fun r =>
    (same (ostrs (r.weatherTrends.list.map (·.code))) (.list [.str py!"TEMPO TL0600 5000 +SN SCT012"])) &&
    (same (.str (trendsStr r.weatherTrends)) (.str py!"temporary from 2020-10-19 04:30:00 until 2020-10-19 06:00:00\n5.0 km\nheavy snow\nscattered at 1200.0 feet")) &&
    (ok (r.weatherTrends.getItem 0) fun v1 => same (.ofStr v1.code) (.str py!"TEMPO TL0600 5000 +SN SCT012")) &&
    (ok (r.weatherTrends.getItem 0) fun v1 => same (ostrs (v1.core.weathers.list.map (·.code))) (.list [.str py!"+SN"])) &&
    (ok (r.weatherTrends.getItem 0) fun v1 => same (.str (v1.core.weathers.str fun x => x.str)) (.str py!"heavy snow")) &&
    (ok (r.weatherTrends.getItem 0) fun v1 => ok (v1.core.weathers.asDict fun x => .ok (x.dict)) fun v2 => same v2 (.dict [(py!"first", .dict [(py!"code", .str py!"+SN"), (py!"description", .none), (py!"intensity", .str py!"heavy"), (py!"obscuration", .none), (py!"other", .none), (py!"precipitation", .str py!"snow")])])) &&
    (ok (r.weatherTrends.getItem 0) fun v1 => ok (v1.core.weathers.getItem 0) fun v3 => same (.ofStr v3.intensity) (.str py!"heavy")) &&
    (ok (r.weatherTrends.getItem 0) fun v1 => ok (v1.core.weathers.getItem 0) fun v4 => same (.ofStr v4.description) (.none)) &&
    (ok (r.weatherTrends.getItem 0) fun v1 => ok (v1.core.weathers.getItem 0) fun v5 => same (.ofStr v5.precipitation) (.str py!"snow")) &&
    (ok (r.weatherTrends.getItem 0) fun v1 => ok (v1.core.weathers.getItem 0) fun v6 => same (.ofStr v6.obscuration) (.none)) &&
    (ok (r.weatherTrends.getItem 0) fun v1 => ok (v1.core.weathers.getItem 0) fun v7 => same (.ofStr v7.other) (.none)) &&
    (ok (r.weatherTrends.getItem 0) fun v1 => same (.str (v1.core.weathers.str fun x => x.str)) (.str py!"heavy snow")) &&
    (ok (r.weatherTrends.getItem 0) fun v1 => raises (v1.core.weathers.getItem 1) .index)) = true := by decide +kernel

/-! `test_two_weather_trend_weathers` (tests/metar/test_weather_trend_weather.py 55-111) -/

example : ok (Metar.new testDb testClock
    py!"METAR MRLM 191300Z 22005KT 6000 +DZ VCSH FEW010TCU OVC070 24/23 A2991 RERA BECMG 3000 TSRA BR SCT010CB"
    ⟨some 2020, some 10, false⟩) (fun r =>
    (same (ostrs (r.weatherTrends.list.map (·.code))) (.list [.str py!"BECMG 3000 TSRA BR SCT010CB"])) &&
    (same (.str (trendsStr r.weatherTrends)) (.str py!"becoming from 2020-10-19 13:00:00 until 2020-10-19 15:00:00\n3.0 km\nthunderstorm rain\nmist\nscattered at 1000.0 feet of cumulonimbus")) &&
    (ok (r.weatherTrends.getItem 0) fun v1 => same (.ofStr v1.code) (.str py!"BECMG 3000 TSRA BR SCT010CB")) &&
    (ok (r.weatherTrends.getItem 0) fun v1 => same (ostrs (v1.core.weathers.list.map (·.code))) (.list [.str py!"TSRA", .str py!"BR"])) &&
    (ok (r.weatherTrends.getItem 0) fun v1 => same (.str (v1.core.weathers.str fun x => x.str)) (.str py!"thunderstorm rain | mist")) &&
    (ok (r.weatherTrends.getItem 0) fun v1 => ok (v1.core.weathers.asDict fun x => .ok (x.dict)) fun v2 => same v2 (.dict [(py!"first", .dict [(py!"code", .str py!"TSRA"), (py!"description", .str py!"thunderstorm"), (py!"intensity", .none), (py!"obscuration", .none), (py!"other", .none), (py!"precipitation", .str py!"rain")]), (py!"second", .dict [(py!"code", .str py!"BR"), (py!"description", .none), (py!"intensity", .none), (py!"obscuration", .str py!"mist"), (py!"other", .none), (py!"precipitation", .none)])])) &&
    (ok (r.weatherTrends.getItem 0) fun v1 => ok (v1.core.weathers.getItem 0) fun v3 => same (.ofStr v3.intensity) (.none)) &&
    (ok (r.weatherTrends.getItem 0) fun v1 => ok (v1.core.weathers.getItem 0) fun v4 => same (.ofStr v4.description) (.str py!"thunderstorm")) &&
    (ok (r.weatherTrends.getItem 0) fun v1 => ok (v1.core.weathers.getItem 0) fun v5 => same (.ofStr v5.precipitation) (.str py!"rain")) &&
    (ok (r.weatherTrends.getItem 0) fun v1 => ok (v1.core.weathers.getItem 0) fun v6 => same (.ofStr v6.obscuration) (.none)) &&
    (ok (r.weatherTrends.getItem 0) fun v1 => ok (v1.core.weathers.getItem 0) fun v7 => same (.ofStr v7.other) (.none)) &&
    (ok (r.weatherTrends.getItem 0) fun v1 => ok (v1.core.weathers.getItem 1) fun v8 => same (.ofStr v8.intensity) (.none)) &&
    (ok (r.weatherTrends.getItem 0) fun v1 => ok (v1.core.weathers.getItem 1) fun v9 => same (.ofStr v9.description) (.none)) &&
    (ok (r.weatherTrends.getItem 0) fun v1 => ok (v1.core.weathers.getItem 1) fun v10 => same (.ofStr v10.precipitation) (.none)) &&
    (ok (r.weatherTrends.getItem 0) fun v1 => ok (v1.core.weathers.getItem 1) fun v11 => same (.ofStr v11.obscuration) (.str py!"mist")) &&
    (ok (r.weatherTrends.getItem 0) fun v1 => ok (v1.core.weathers.getItem 1) fun v12 => same (.ofStr v12.other) (.none)) &&
    (ok (r.weatherTrends.getItem 0) fun v1 => raises (v1.core.weathers.getItem 2) .index)) = true := by decide +kernel

/-! `test_three_weather_trend_weathers` (tests/metar/test_weather_trend_weather.py 114-181) -/

example : ok (Metar.new testDb testClock
    py!"METAR BIBD 191100Z 03002KT 9999 SCT008CB OVC020 04/03 Q1013 TEMPO 5000 -RA BR VCTS"
    ⟨some 2020, some 10, false⟩) (fun r =>
    (same (ostrs (r.weatherTrends.list.map (·.code))) (.list [.str py!"TEMPO 5000 -RA BR VCTS"])) &&
    (same (.str (trendsStr r.weatherTrends)) (.str py!"temporary from 2020-10-19 11:00:00 until 2020-10-19 13:00:00\n5.0 km\nlight rain\nmist\nnearby thunderstorm")) &&
    (ok (r.weatherTrends.getItem 0) fun v1 => same (.ofStr v1.code) (.str py!"TEMPO 5000 -RA BR VCTS")) &&
    (ok (r.weatherTrends.getItem 0) fun v1 => same (ostrs (v1.core.weathers.list.map (·.code))) (.list [.str py!"-RA", .str py!"BR", .str py!"VCTS"])) &&
    (ok (r.weatherTrends.getItem 0) fun v1 => same (.str (v1.core.weathers.str fun x => x.str)) (.str py!"light rain | mist | nearby thunderstorm")) &&
    (ok (r.weatherTrends.getItem 0) fun v1 => ok (v1.core.weathers.asDict fun x => .ok (x.dict)) fun v2 => same v2 (.dict [(py!"first", .dict [(py!"code", .str py!"-RA"), (py!"description", .none), (py!"intensity", .str py!"light"), (py!"obscuration", .none), (py!"other", .none), (py!"precipitation", .str py!"rain")]), (py!"second", .dict [(py!"code", .str py!"BR"), (py!"description", .none), (py!"intensity", .none), (py!"obscuration", .str py!"mist"), (py!"other", .none), (py!"precipitation", .none)]), (py!"third", .dict [(py!"code", .str py!"VCTS"), (py!"description", .str py!"thunderstorm"), (py!"intensity", .str py!"nearby"), (py!"obscuration", .none), (py!"other", .none), (py!"precipitation", .none)])])) &&
    (ok (r.weatherTrends.getItem 0) fun v1 => ok (v1.core.weathers.getItem 0) fun v3 => same (.ofStr v3.intensity) (.str py!"light")) &&
    (ok (r.weatherTrends.getItem 0) fun v1 => ok (v1.core.weathers.getItem 0) fun v4 => same (.ofStr v4.description) (.none)) &&
    (ok (r.weatherTrends.getItem 0) fun v1 => ok (v1.core.weathers.getItem 0) fun v5 => same (.ofStr v5.precipitation) (.str py!"rain")) &&
    (ok (r.weatherTrends.getItem 0) fun v1 => ok (v1.core.weathers.getItem 0) fun v6 => same (.ofStr v6.obscuration) (.none)) &&
    (ok (r.weatherTrends.getItem 0) fun v1 => ok (v1.core.weathers.getItem 0) fun v7 => same (.ofStr v7.other) (.none)) &&
    (ok (r.weatherTrends.getItem 0) fun v1 => ok (v1.core.weathers.getItem 1) fun v8 => same (.ofStr v8.intensity) (.none)) &&
    (ok (r.weatherTrends.getItem 0) fun v1 => ok (v1.core.weathers.getItem 1) fun v9 => same (.ofStr v9.description) (.none)) &&
    (ok (r.weatherTrends.getItem 0) fun v1 => ok (v1.core.weathers.getItem 1) fun v10 => same (.ofStr v10.precipitation) (.none)) &&
    (ok (r.weatherTrends.getItem 0) fun v1 => ok (v1.core.weathers.getItem 1) fun v11 => same (.ofStr v11.obscuration) (.str py!"mist")) &&
    (ok (r.weatherTrends.getItem 0) fun v1 => ok (v1.core.weathers.getItem 1) fun v12 => same (.ofStr v12.other) (.none)) &&
    (ok (r.weatherTrends.getItem 0) fun v1 => ok (v1.core.weathers.getItem 2) fun v13 => same (.ofStr v13.intensity) (.str py!"nearby")) &&
    (ok (r.weatherTrends.getItem 0) fun v1 => ok (v1.core.weathers.getItem 2) fun v14 => same (.ofStr v14.description) (.str py!"thunderstorm")) &&
    (ok (r.weatherTrends.getItem 0) fun v1 => ok (v1.core.weathers.getItem 2) fun v15 => same (.ofStr v15.precipitation) (.none)) &&
    (ok (r.weatherTrends.getItem 0) fun v1 => ok (v1.core.weathers.getItem 2) fun v16 => same (.ofStr v16.obscuration) (.none)) &&
    (ok (r.weatherTrends.getItem 0) fun v1 => ok (v1.core.weathers.getItem 2) fun v17 => same (.ofStr v17.other) (.none))) = true := by decide +kernel

/-! `test_no_weather_trend_weathers` (tests/metar/test_weather_trend_weather.py 184-208) -/

example : ok (Metar.new testDb testClock
    py!"METAR LIRG 211755Z 27003KT CAVOK 24/14 Q1020 NOSIG RMK FEW FEW200 MON NE LIB NC VIS MIN 9999 BLU"
    ⟨some 2020, some 10, false⟩) (fun r =>
    (same (ostrs (r.weatherTrends.list.map (·.code))) (.list [.str py!"NOSIG"])) &&
    (same (.str (trendsStr r.weatherTrends)) (.str py!"no significant changes from 2020-10-21 17:55:00 until 2020-10-21 19:55:00")) &&
    (ok (r.weatherTrends.getItem 0) fun v1 => same (.ofStr v1.code) (.str py!"NOSIG")) &&
    (ok (r.weatherTrends.getItem 0) fun v1 => same (ostrs (v1.core.weathers.list.map (·.code))) (.list [])) &&
    (ok (r.weatherTrends.getItem 0) fun v1 => same (.str (v1.core.weathers.str fun x => x.str)) (.str [])) &&
    (ok (r.weatherTrends.getItem 0) fun v1 => ok (v1.core.weathers.asDict fun x => .ok (x.dict)) fun v2 => same v2 (.dict [])) &&
    (ok (r.weatherTrends.getItem 0) fun v1 => raises (v1.core.weathers.getItem 0) .index) &&
    (ok (r.weatherTrends.getItem 0) fun v1 => raises (v1.core.weathers.getItem 1) .index) &&
    (ok (r.weatherTrends.getItem 0) fun v1 => raises (v1.core.weathers.getItem 2) .index)) = true := by decide +kernel

/-! `test_try_to_get_item_4_in_weather_trend_weathers` (tests/metar/test_weather_trend_weather.py 211-251) -/

example : ok (Metar.new testDb testClock
    py!"METAR SCVM 060000Z 28007KT 250V310 9999 SCT016CB 16/13 Q1014 BECMG 5000 TSRA BR VCFG"
    ⟨some 2020, some 10, false⟩) (fun r =>
    (ok (r.weatherTrends.getItem 0) fun v1 => same (ostrs (v1.core.weathers.list.map (·.code))) (.list [.str py!"TSRA", .str py!"BR", .str py!"VCFG"])) &&
    (ok (r.weatherTrends.getItem 0) fun v1 => same (.str (v1.core.weathers.str fun x => x.str)) (.str py!"thunderstorm rain | mist | nearby fog")) &&
    (ok (r.weatherTrends.getItem 0) fun v1 => ok (v1.core.weathers.asDict fun x => .ok (x.dict)) fun v2 => same v2 (.dict [(py!"first", .dict [(py!"code", .str py!"TSRA"), (py!"description", .str py!"thunderstorm"), (py!"intensity", .none), (py!"obscuration", .none), (py!"other", .none), (py!"precipitation", .str py!"rain")]), (py!"second", .dict [(py!"code", .str py!"BR"), (py!"description", .none), (py!"intensity", .none), (py!"obscuration", .str py!"mist"), (py!"other", .none), (py!"precipitation", .none)]), (py!"third", .dict [(py!"code", .str py!"VCFG"), (py!"description", .none), (py!"intensity", .str py!"nearby"), (py!"obscuration", .str py!"fog"), (py!"other", .none), (py!"precipitation", .none)])])) &&
    (ok (r.weatherTrends.getItem 0) fun v1 => raises (v1.core.weathers.getItem 3) .range)) = true := by decide +kernel

end Verif.Tests
