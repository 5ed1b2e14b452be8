import Verif.Tests.Database

/-
The assertions of tests/metar/test_weather_trend_wind.py, checked of the model. Generated by tools/tests2lean.py.
-/

namespace Verif.Tests

/-! `test_weather_trend_wind_with_gust` (tests/metar/test_weather_trend_wind.py 9-49) -/

example : ok (Metar.new testDb testClock
    py!"METAR SEQM 050400Z 04010KT 9999 BKN006 OVC030 14/12 Q1028 TEMPO 09012G22KT RMK A3037"
    ⟨some 2021, some 5, false⟩) (fun r =>
    (same (ostrs (r.weatherTrends.list.map (·.code))) (.list [.str py!"TEMPO 09012G22KT"])) &&
    (same (.str (trendsStr r.weatherTrends)) (.str py!"temporary from 2021-05-05 04:00:00 until 2021-05-05 06:00:00\nE (90.0°) 12.0 kt gust of 22.0 kt")) &&
    (ok (r.weatherTrends.getItem 0) fun v1 => same (.ofStr v1.code) (.str py!"TEMPO 09012G22KT")) &&
    (ok (r.weatherTrends.getItem 0) fun v1 => same (.ofStr v1.core.wind.code) (.str py!"09012G22KT")) &&
    (ok (r.weatherTrends.getItem 0) fun v1 => same (.ofStr (v1.core.wind.direction.cardinal)) (.str py!"E")) &&
    (ok (r.weatherTrends.getItem 0) fun v1 => same (.ofFloat v1.core.wind.direction.value) (num 90 1)) &&
    (ok (r.weatherTrends.getItem 0) fun v1 => same (.ofFloat (v1.core.wind.direction.inRadians)) (num 884279719003555 562949953421312)) &&
    (ok (r.weatherTrends.getItem 0) fun v1 => same (.bool v1.core.wind.direction.variable_) (.bool false)) &&
    (ok (r.weatherTrends.getItem 0) fun v1 => same (.ofFloat v1.core.wind.speed) (num 12 1)) &&
    (ok (r.weatherTrends.getItem 0) fun v1 => same (.ofFloat (inMps v1.core.wind.speed)) (num 3475277682430235 562949953421312)) &&
    (ok (r.weatherTrends.getItem 0) fun v1 => same (.ofFloat (inKph v1.core.wind.speed)) (num 6255499882417619 281474976710656)) &&
    (ok (r.weatherTrends.getItem 0) fun v1 => same (.ofFloat v1.core.wind.gust) (num 22 1)) &&
    (ok (r.weatherTrends.getItem 0) fun v1 => same (.ofFloat (inMps v1.core.wind.gust)) (num 6371342417788765 562949953421312)) &&
    (ok (r.weatherTrends.getItem 0) fun v1 => same (.ofFloat (inMiph v1.core.wind.gust)) (num 7126147021379951 281474976710656)) &&
    (ok (r.weatherTrends.getItem 0) fun v1 => same v1.core.wind.dict (.dict [(py!"code", .str py!"09012G22KT"), (py!"direction", .dict [(py!"cardinal", .str py!"E"), (py!"direction", num 90 1), (py!"units", .str py!"degrees"), (py!"variable", .bool false)]), (py!"gust", .dict [(py!"speed", num 22 1), (py!"units", .str py!"knot")]), (py!"speed", .dict [(py!"speed", num 12 1), (py!"units", .str py!"knot")])])) &&
    (raises (r.weatherTrends.getItem 1) .index)) = true := by decide +kernel

/-! `test_weather_trend_wind_without_gust` (tests/metar/test_weather_trend_wind.py 52-92) -/

example : ok (Metar.new testDb testClock
    py!"METAR LPPT 082000Z 29003KT CAVOK 14/07 Q1026 BECMG 34012KT"
    ⟨some 2021, some 5, false⟩) (fun r =>
    (same (ostrs (r.weatherTrends.list.map (·.code))) (.list [.str py!"BECMG 34012KT"])) &&
    (same (.str (trendsStr r.weatherTrends)) (.str py!"becoming from 2021-05-08 20:00:00 until 2021-05-08 22:00:00\nNNW (340.0°) 12.0 kt")) &&
    (ok (r.weatherTrends.getItem 0) fun v1 => same (.ofStr v1.code) (.str py!"BECMG 34012KT")) &&
    (ok (r.weatherTrends.getItem 0) fun v1 => same (.ofStr v1.core.wind.code) (.str py!"34012KT")) &&
    (ok (r.weatherTrends.getItem 0) fun v1 => same (.ofStr (v1.core.wind.direction.cardinal)) (.str py!"NNW")) &&
    (ok (r.weatherTrends.getItem 0) fun v1 => same (.ofFloat v1.core.wind.direction.value) (num 340 1)) &&
    (ok (r.weatherTrends.getItem 0) fun v1 => same (.ofFloat (v1.core.wind.direction.inRadians)) (num 417576533973901 70368744177664)) &&
    (ok (r.weatherTrends.getItem 0) fun v1 => same (.bool v1.core.wind.direction.variable_) (.bool false)) &&
    (ok (r.weatherTrends.getItem 0) fun v1 => same (.ofFloat v1.core.wind.speed) (num 12 1)) &&
    (ok (r.weatherTrends.getItem 0) fun v1 => same (.ofFloat (inMps v1.core.wind.speed)) (num 3475277682430235 562949953421312)) &&
    (ok (r.weatherTrends.getItem 0) fun v1 => same (.ofFloat (inKph v1.core.wind.speed)) (num 6255499882417619 281474976710656)) &&
    (ok (r.weatherTrends.getItem 0) fun v1 => same (.ofFloat v1.core.wind.gust) (.none)) &&
    (ok (r.weatherTrends.getItem 0) fun v1 => same (.ofFloat (inMps v1.core.wind.gust)) (.none)) &&
    (ok (r.weatherTrends.getItem 0) fun v1 => same (.ofFloat (inMiph v1.core.wind.gust)) (.none)) &&
    (ok (r.weatherTrends.getItem 0) fun v1 => same v1.core.wind.dict (.dict [(py!"code", .str py!"34012KT"), (py!"direction", .dict [(py!"cardinal", .str py!"NNW"), (py!"direction", num 340 1), (py!"units", .str py!"degrees"), (py!"variable", .bool false)]), (py!"gust", .dict [(py!"speed", .none), (py!"units", .str py!"knot")]), (py!"speed", .dict [(py!"speed", num 12 1), (py!"units", .str py!"knot")])])) &&
    (raises (r.weatherTrends.getItem 1) .index)) = true := by decide +kernel

/-! `test_weather_trend_no_wind` (tests/metar/test_weather_trend_wind.py 95-135) -/

example : ok (Metar.new testDb testClock
    py!"METAR SEQM 162000Z 08005KT 9999 VCSH SCT030 BKN200 21/12 Q1022 TEMPO RA RMK A3018"
    ⟨some 2021, some 5, false⟩) (fun r =>
    (same (ostrs (r.weatherTrends.list.map (·.code))) (.list [.str py!"TEMPO RA"])) &&
    (same (.str (trendsStr r.weatherTrends)) (.str py!"temporary from 2021-05-16 20:00:00 until 2021-05-16 22:00:00\nrain")) &&
    (ok (r.weatherTrends.getItem 0) fun v1 => same (.ofStr v1.code) (.str py!"TEMPO RA")) &&
    (ok (r.weatherTrends.getItem 0) fun v1 => same (.ofStr v1.core.wind.code) (.none)) &&
    (ok (r.weatherTrends.getItem 0) fun v1 => same (.ofFloat v1.core.wind.direction.value) (.none)) &&
    (ok (r.weatherTrends.getItem 0) fun v1 => same (.ofStr (v1.core.wind.direction.cardinal)) (.none)) &&
    (ok (r.weatherTrends.getItem 0) fun v1 => same (.ofFloat (v1.core.wind.direction.inRadians)) (.none)) &&
    (ok (r.weatherTrends.getItem 0) fun v1 => same (.bool v1.core.wind.direction.variable_) (.bool false)) &&
    (ok (r.weatherTrends.getItem 0) fun v1 => same (.ofFloat v1.core.wind.speed) (.none)) &&
    (ok (r.weatherTrends.getItem 0) fun v1 => same (.ofFloat (inMps v1.core.wind.speed)) (.none)) &&
    (ok (r.weatherTrends.getItem 0) fun v1 => same (.ofFloat (inKph v1.core.wind.speed)) (.none)) &&
    (ok (r.weatherTrends.getItem 0) fun v1 => same (.ofFloat v1.core.wind.gust) (.none)) &&
    (ok (r.weatherTrends.getItem 0) fun v1 => same (.ofFloat (inMps v1.core.wind.gust)) (.none)) &&
    (ok (r.weatherTrends.getItem 0) fun v1 => same (.ofFloat (inMiph v1.core.wind.gust)) (.none)) &&
    (ok (r.weatherTrends.getItem 0) fun v1 => same v1.core.wind.dict (.dict [(py!"code", .none), (py!"direction", .dict [(py!"cardinal", .none), (py!"direction", .none), (py!"units", .str py!"degrees"), (py!"variable", .bool false)]), (py!"gust", .dict [(py!"speed", .none), (py!"units", .str py!"knot")]), (py!"speed", .dict [(py!"speed", .none), (py!"units", .str py!"knot")])])) &&
    (raises (r.weatherTrends.getItem 1) .index)) = true := by decide +kernel

end Verif.Tests
