import Verif.Tests.Database

/-
The assertions of tests/metar/test_weather_trend_cloud.py, checked of the model. Generated by tools/tests2lean.py.
-/

namespace Verif.Tests

/-! `test_two_trend_cloud_layers` (tests/metar/test_weather_trend_cloud.py 10-72) -/

example : ok (Metar.new testDb testClock
    py!"METAR BIAR 190800Z 20015KT 9999 FEW049 BKN056 10/03 Q1016 BECMG 5000 RA SCT010 BKN015"
    ⟨some 2019, some 7, false⟩) (fun r =>
    (same (ostrs (r.weatherTrends.list.map (·.code))) (.list [.str py!"BECMG 5000 RA SCT010 BKN015"])) &&
    (same (.str (trendsStr r.weatherTrends)) (.str py!"becoming from 2019-07-19 08:00:00 until 2019-07-19 10:00:00\n5.0 km\nrain\nscattered at 1000.0 feet\nbroken at 1500.0 feet")) &&
    (ok (r.weatherTrends.getItem 0) fun v1 => same (.ofStr v1.code) (.str py!"BECMG 5000 RA SCT010 BKN015")) &&
    (ok (r.weatherTrends.getItem 0) fun v1 => same (ostrs (v1.core.clouds.list.map (·.code))) (.list [.str py!"SCT010", .str py!"BKN015"])) &&
    (ok (r.weatherTrends.getItem 0) fun v1 => same (.str (v1.core.clouds.str fun x => x.str)) (.str py!"scattered at 1000.0 feet | broken at 1500.0 feet")) &&
    (ok (r.weatherTrends.getItem 0) fun v1 => ok (ceiling v1.core.clouds.list) fun v2 => same (.bool v2) (.bool true)) &&
    (ok (r.weatherTrends.getItem 0) fun v1 => ok (v1.core.clouds.asDict fun x => .ok (x.dict)) fun v3 => same v3 (.dict [(py!"first", .dict [(py!"code", .str py!"SCT010"), (py!"cover", .str py!"scattered"), (py!"height", num 5362098306337997 17592186044416), (py!"height_units", .str py!"meters"), (py!"oktas", .str py!"3-4"), (py!"type", .none)]), (py!"second", .dict [(py!"code", .str py!"BKN015"), (py!"cover", .str py!"broken"), (py!"height", num 8043147459506995 17592186044416), (py!"height_units", .str py!"meters"), (py!"oktas", .str py!"5-7"), (py!"type", .none)])])) &&
    (ok (r.weatherTrends.getItem 0) fun v1 => ok (v1.core.clouds.getItem 0) fun v4 => same (.ofStr v4.code) (.str py!"SCT010")) &&
    (ok (r.weatherTrends.getItem 0) fun v1 => ok (v1.core.clouds.getItem 0) fun v5 => same (.ofStr v5.cover) (.str py!"scattered")) &&
    (ok (r.weatherTrends.getItem 0) fun v1 => ok (v1.core.clouds.getItem 0) fun v6 => same (.ofStr v6.oktas) (.str py!"3-4")) &&
    (ok (r.weatherTrends.getItem 0) fun v1 => ok (v1.core.clouds.getItem 0) fun v7 => same (.ofFloat (inFeet v7.height)) (num 8796093022207999 8796093022208)) &&
    (ok (r.weatherTrends.getItem 0) fun v1 => ok (v1.core.clouds.getItem 0) fun v8 => same (.ofFloat v8.height) (num 5362098306337997 17592186044416)) &&
    (ok (r.weatherTrends.getItem 0) fun v1 => ok (v1.core.clouds.getItem 0) fun v9 => same (.ofFloat (inKilometers v9.height)) (num 5490788665690109 18014398509481984)) &&
    (ok (r.weatherTrends.getItem 0) fun v1 => ok (v1.core.clouds.getItem 0) fun v10 => same (.ofFloat (inSeaMiles v10.height)) (num 5929577392753897 36028797018963968)) &&
    (ok (r.weatherTrends.getItem 0) fun v1 => ok (v1.core.clouds.getItem 0) fun v11 => same (.ofStr v11.type) (.none)) &&
    (ok (r.weatherTrends.getItem 0) fun v1 => ok (v1.core.clouds.getItem 1) fun v12 => same (.ofStr v12.code) (.str py!"BKN015")) &&
    (ok (r.weatherTrends.getItem 0) fun v1 => ok (v1.core.clouds.getItem 1) fun v13 => same (.ofStr v13.cover) (.str py!"broken")) &&
    (ok (r.weatherTrends.getItem 0) fun v1 => ok (v1.core.clouds.getItem 1) fun v14 => same (.ofStr v14.oktas) (.str py!"5-7")) &&
    (ok (r.weatherTrends.getItem 0) fun v1 => ok (v1.core.clouds.getItem 1) fun v15 => same (.ofFloat (inFeet v15.height)) (num 6597069766655999 4398046511104)) &&
    (ok (r.weatherTrends.getItem 0) fun v1 => ok (v1.core.clouds.getItem 1) fun v16 => same (.ofFloat v16.height) (num 8043147459506995 17592186044416)) &&
    (ok (r.weatherTrends.getItem 0) fun v1 => ok (v1.core.clouds.getItem 1) fun v17 => same (.ofFloat (inKilometers v17.height)) (num 8236182998535163 18014398509481984)) &&
    (ok (r.weatherTrends.getItem 0) fun v1 => ok (v1.core.clouds.getItem 1) fun v18 => same (.ofFloat (inSeaMiles v18.height)) (num 2223591522282711 9007199254740992)) &&
    (ok (r.weatherTrends.getItem 0) fun v1 => ok (v1.core.clouds.getItem 1) fun v19 => same (.ofStr v19.type) (.none)) &&
    (ok (r.weatherTrends.getItem 0) fun v1 => raises (v1.core.clouds.getItem 2) .index)) = true := by decide +kernel

/-! `test_three_layers` (tests/metar/test_weather_trend_cloud.py 75-159) -/

example : ok (Metar.new testDb testClock
    py!"SPECI KMIA 191458Z 33006KT CAVOK 23/21 A3003 BECMG 5SM -TSRA BR FEW013 BKN021CB OVC040 RMK AO2 OCNL LTGICCG OHD TS OHD MOV SE P0007 T02280211"
    ⟨some 2019, some 7, false⟩) (fun r =>
    (same (ostrs (r.weatherTrends.list.map (·.code))) (.list [.str py!"BECMG 5SM -TSRA BR FEW013 BKN021CB OVC040"])) &&
    (same (.str (trendsStr r.weatherTrends)) (.str py!"becoming from 2019-07-19 14:58:00 until 2019-07-19 16:58:00\n9.3 km\nlight thunderstorm rain\nmist\na few at 1300.0 feet\nbroken at 2100.0 feet of cumulonimbus\novercast at 4000.0 feet")) &&
    (ok (r.weatherTrends.getItem 0) fun v1 => same (.ofStr v1.code) (.str py!"BECMG 5SM -TSRA BR FEW013 BKN021CB OVC040")) &&
    (ok (r.weatherTrends.getItem 0) fun v1 => same (ostrs (v1.core.clouds.list.map (·.code))) (.list [.str py!"FEW013", .str py!"BKN021CB", .str py!"OVC040"])) &&
    (ok (r.weatherTrends.getItem 0) fun v1 => same (.str (v1.core.clouds.str fun x => x.str)) (.str py!"a few at 1300.0 feet | broken at 2100.0 feet of cumulonimbus | overcast at 4000.0 feet")) &&
    (ok (r.weatherTrends.getItem 0) fun v1 => ok (ceiling v1.core.clouds.list) fun v2 => same (.bool v2) (.bool false)) &&
    (ok (r.weatherTrends.getItem 0) fun v1 => ok (v1.core.clouds.asDict fun x => .ok (x.dict)) fun v3 => same v3 (.dict [(py!"first", .dict [(py!"code", .str py!"FEW013"), (py!"cover", .str py!"a few"), (py!"height", num 1742681949559849 4398046511104), (py!"height_units", .str py!"meters"), (py!"oktas", .str py!"1-2"), (py!"type", .none)]), (py!"second", .dict [(py!"code", .str py!"BKN021CB"), (py!"cover", .str py!"broken"), (py!"height", num 5630203221654897 8796093022208), (py!"height_units", .str py!"meters"), (py!"oktas", .str py!"5-7"), (py!"type", .str py!"cumulonimbus")]), (py!"third", .dict [(py!"code", .str py!"OVC040"), (py!"cover", .str py!"overcast"), (py!"height", num 5362098306337997 4398046511104), (py!"height_units", .str py!"meters"), (py!"oktas", .str py!"8"), (py!"type", .none)])])) &&
    (ok (r.weatherTrends.getItem 0) fun v1 => ok (v1.core.clouds.getItem 0) fun v4 => same (.ofStr v4.code) (.str py!"FEW013")) &&
    (ok (r.weatherTrends.getItem 0) fun v1 => ok (v1.core.clouds.getItem 0) fun v5 => same (.ofStr v5.cover) (.str py!"a few")) &&
    (ok (r.weatherTrends.getItem 0) fun v1 => ok (v1.core.clouds.getItem 0) fun v6 => same (.ofStr v6.oktas) (.str py!"1-2")) &&
    (ok (r.weatherTrends.getItem 0) fun v1 => ok (v1.core.clouds.getItem 0) fun v7 => same (.ofFloat (inFeet v7.height)) (num 1300 1)) &&
    (ok (r.weatherTrends.getItem 0) fun v1 => ok (v1.core.clouds.getItem 0) fun v8 => same (.ofFloat v8.height) (num 1742681949559849 4398046511104)) &&
    (ok (r.weatherTrends.getItem 0) fun v1 => ok (v1.core.clouds.getItem 0) fun v9 => same (.ofFloat (inKilometers v9.height)) (num 3569012632698571 9007199254740992)) &&
    (ok (r.weatherTrends.getItem 0) fun v1 => ok (v1.core.clouds.getItem 0) fun v10 => same (.ofFloat (inSeaMiles v10.height)) (num 7708450610580065 36028797018963968)) &&
    (ok (r.weatherTrends.getItem 0) fun v1 => ok (v1.core.clouds.getItem 0) fun v11 => same (.ofStr v11.type) (.none)) &&
    (ok (r.weatherTrends.getItem 0) fun v1 => ok (v1.core.clouds.getItem 1) fun v12 => same (.ofStr v12.code) (.str py!"BKN021CB")) &&
    (ok (r.weatherTrends.getItem 0) fun v1 => ok (v1.core.clouds.getItem 1) fun v13 => same (.ofStr v13.cover) (.str py!"broken")) &&
    (ok (r.weatherTrends.getItem 0) fun v1 => ok (v1.core.clouds.getItem 1) fun v14 => same (.ofStr v14.oktas) (.str py!"5-7")) &&
    (ok (r.weatherTrends.getItem 0) fun v1 => ok (v1.core.clouds.getItem 1) fun v15 => same (.ofFloat (inFeet v15.height)) (num 2100 1)) &&
    (ok (r.weatherTrends.getItem 0) fun v1 => ok (v1.core.clouds.getItem 1) fun v16 => same (.ofFloat v16.height) (num 5630203221654897 8796093022208)) &&
    (ok (r.weatherTrends.getItem 0) fun v1 => ok (v1.core.clouds.getItem 1) fun v17 => same (.ofFloat (inKilometers v17.height)) (num 5765328098974615 9007199254740992)) &&
    (ok (r.weatherTrends.getItem 0) fun v1 => ok (v1.core.clouds.getItem 1) fun v18 => same (.ofFloat (inSeaMiles v18.height)) (num 6226056262391591 18014398509481984)) &&
    (ok (r.weatherTrends.getItem 0) fun v1 => ok (v1.core.clouds.getItem 1) fun v19 => same (.ofStr v19.type) (.str py!"cumulonimbus")) &&
    (ok (r.weatherTrends.getItem 0) fun v1 => ok (v1.core.clouds.getItem 2) fun v20 => same (.ofStr v20.code) (.str py!"OVC040")) &&
    (ok (r.weatherTrends.getItem 0) fun v1 => ok (v1.core.clouds.getItem 2) fun v21 => same (.ofStr v21.cover) (.str py!"overcast")) &&
    (ok (r.weatherTrends.getItem 0) fun v1 => ok (v1.core.clouds.getItem 2) fun v22 => same (.ofStr v22.oktas) (.str py!"8")) &&
    (ok (r.weatherTrends.getItem 0) fun v1 => ok (v1.core.clouds.getItem 2) fun v23 => same (.ofFloat (inFeet v23.height)) (num 8796093022207999 2199023255552)) &&
    (ok (r.weatherTrends.getItem 0) fun v1 => ok (v1.core.clouds.getItem 2) fun v24 => same (.ofFloat v24.height) (num 5362098306337997 4398046511104)) &&
    (ok (r.weatherTrends.getItem 0) fun v1 => ok (v1.core.clouds.getItem 2) fun v25 => same (.ofFloat (inKilometers v25.height)) (num 5490788665690109 4503599627370496)) &&
    (ok (r.weatherTrends.getItem 0) fun v1 => ok (v1.core.clouds.getItem 2) fun v26 => same (.ofFloat (inSeaMiles v26.height)) (num 5929577392753897 9007199254740992)) &&
    (ok (r.weatherTrends.getItem 0) fun v1 => ok (v1.core.clouds.getItem 2) fun v27 => same (.ofStr v27.type) (.none)) &&
    (ok (r.weatherTrends.getItem 0) fun v1 => raises (v1.core.clouds.getItem 4) .range)) = true := by decide +kernel

/-! `test_no_trend_clouds` (tests/metar/test_weather_trend_cloud.py 162-187) -/

example : ok (Metar.new testDb testClock
    py!"METAR MROC 190700Z 11009KT CAVOK 22/19 A2997 TEMPO 9999 RA"
    ⟨some 2019, some 7, false⟩) (fun r =>
    (same (ostrs (r.weatherTrends.list.map (·.code))) (.list [.str py!"TEMPO 9999 RA"])) &&
    (same (.str (trendsStr r.weatherTrends)) (.str py!"temporary from 2019-07-19 07:00:00 until 2019-07-19 09:00:00\n10.0 km\nrain")) &&
    (ok (r.weatherTrends.getItem 0) fun v1 => same (.ofStr v1.code) (.str py!"TEMPO 9999 RA")) &&
    (ok (r.weatherTrends.getItem 0) fun v1 => same (ostrs (v1.core.clouds.list.map (·.code))) (.list [])) &&
    (ok (r.weatherTrends.getItem 0) fun v1 => same (.str (v1.core.clouds.str fun x => x.str)) (.str [])) &&
    (ok (r.weatherTrends.getItem 0) fun v1 => ok (v1.core.clouds.asDict fun x => .ok (x.dict)) fun v2 => same v2 (.dict [])) &&
    (ok (r.weatherTrends.getItem 0) fun v1 => raises (v1.core.clouds.getItem 0) .index) &&
    (ok (r.weatherTrends.getItem 0) fun v1 => raises (v1.core.clouds.getItem 1) .index) &&
    (ok (r.weatherTrends.getItem 0) fun v1 => raises (v1.core.clouds.getItem 2) .index) &&
    (ok (r.weatherTrends.getItem 0) fun v1 => raises (v1.core.clouds.getItem 3) .index)) = true := by decide +kernel

end Verif.Tests
