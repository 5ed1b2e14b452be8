import Verif.Tests.Database

/-
The assertions of tests/metar/test_weather_trend_visibility.py, checked of the model. Generated by tools/tests2lean.py.
-/

namespace Verif.Tests

/-! `test_weather_trend_visibility_from_meters` (tests/metar/test_weather_trend_visibility.py 9-42) -/

example : ok (Metar.new testDb testClock
    py!"METAR SBBV 170400Z 08004KT 9999 SCT030 FEW035TCU BKN070 26/23 Q1012 BECMG 5000 +RA"
    ⟨some 2020, some 8, false⟩) (fun r =>
    (ok (r.weatherTrends.getItem 0) fun v1 => same (.ofStr v1.code) (.str py!"BECMG 5000 +RA")) &&
    (ok (r.weatherTrends.getItem 0) fun v1 => same (.ofStr v1.core.prevailing.code) (.str py!"5000")) &&
    (ok (r.weatherTrends.getItem 0) fun v1 => same (.ofFloat v1.core.prevailing.vis) (num 5000 1)) &&
    (ok (r.weatherTrends.getItem 0) fun v1 => same (.ofFloat (inKilometers v1.core.prevailing.vis)) (num 5 1)) &&
    (ok (r.weatherTrends.getItem 0) fun v1 => same (.ofFloat (inSeaMiles v1.core.prevailing.vis)) (num 6079373147098401 2251799813685248)) &&
    (ok (r.weatherTrends.getItem 0) fun v1 => same (.ofFloat (inFeet v1.core.prevailing.vis)) (num 1127288004199475 68719476736)) &&
    (ok (r.weatherTrends.getItem 0) fun v1 => same (.bool v1.core.prevailing.cavok) (.bool false)) &&
    (ok (r.weatherTrends.getItem 0) fun v1 => same (.ofStr (v1.core.prevailing.direction.cardinal)) (.none)) &&
    (ok (r.weatherTrends.getItem 0) fun v1 => same (.ofFloat v1.core.prevailing.direction.value) (.none)) &&
    (ok (r.weatherTrends.getItem 0) fun v1 => same (.ofFloat (v1.core.prevailing.direction.inRadians)) (.none)) &&
    (ok (r.weatherTrends.getItem 0) fun v1 => same (.str v1.core.prevailing.str) (.str py!"5.0 km")) &&
    (ok (r.weatherTrends.getItem 0) fun v1 => same v1.core.prevailing.dictPrev (.dict [(py!"cavok", .bool false), (py!"code", .str py!"5000"), (py!"direction", .dict [(py!"cardinal", .none), (py!"direction", .none), (py!"units", .str py!"degrees"), (py!"variable", .bool false)]), (py!"visibility", .dict [(py!"distance", num 5000 1), (py!"units", .str py!"meters")])])) &&
    (raises (r.weatherTrends.getItem 1) .index)) = true := by decide +kernel

/-! `test_weather_trend_visibility_from_seamiles` (tests/metar/test_weather_trend_visibility.py 45-76) -/

example : ok (Metar.new testDb testClock
    py!"SPECI PALH 170933Z 00000KT 10SM FEW020 M14/M16 A2980 TEMPO FM1000 TL1100 1 1/4SM BR BKN002 RMK AO2 T11441156"
    ⟨none, none, false⟩) (fun r =>
    (ok (r.weatherTrends.getItem 0) fun v1 => same (.ofStr v1.code) (.str py!"TEMPO FM1000 TL1100 1 1/4SM BR BKN002")) &&
    (ok (r.weatherTrends.getItem 0) fun v1 => same (.ofStr v1.core.prevailing.code) (.str py!"1 1/4SM")) &&
    (ok (r.weatherTrends.getItem 0) fun v1 => same (.ofFloat v1.core.prevailing.vis) (num 2315 1)) &&
    (ok (r.weatherTrends.getItem 0) fun v1 => same (.ofFloat (inKilometers v1.core.prevailing.vis)) (num 5212916568681349 2251799813685248)) &&
    (ok (r.weatherTrends.getItem 0) fun v1 => same (.ofFloat (inSeaMiles v1.core.prevailing.vis)) (num 5629499534213119 4503599627370496)) &&
    (ok (r.weatherTrends.getItem 0) fun v1 => same (.ofFloat (inFeet v1.core.prevailing.vis)) (num 4175474767554855 549755813888)) &&
    (ok (r.weatherTrends.getItem 0) fun v1 => same (.bool v1.core.prevailing.cavok) (.bool false)) &&
    (ok (r.weatherTrends.getItem 0) fun v1 => same (.ofStr (v1.core.prevailing.direction.cardinal)) (.none)) &&
    (ok (r.weatherTrends.getItem 0) fun v1 => same (.ofFloat v1.core.prevailing.direction.value) (.none)) &&
    (ok (r.weatherTrends.getItem 0) fun v1 => same (.ofFloat (v1.core.prevailing.direction.inRadians)) (.none)) &&
    (ok (r.weatherTrends.getItem 0) fun v1 => same (.str v1.core.prevailing.str) (.str py!"2.3 km")) &&
    (ok (r.weatherTrends.getItem 0) fun v1 => same v1.core.prevailing.dictPrev (.dict [(py!"cavok", .bool false), (py!"code", .str py!"1 1/4SM"), (py!"direction", .dict [(py!"cardinal", .none), (py!"direction", .none), (py!"units", .str py!"degrees"), (py!"variable", .bool false)]), (py!"visibility", .dict [(py!"distance", num 2315 1), (py!"units", .str py!"meters")])])) &&
    (raises (r.weatherTrends.getItem 1) .index)) = true := by decide +kernel

/-! `test_weather_trend_visibility_from_seamiles_only_fraction` (tests/metar/test_weather_trend_visibility.py 79-110) -/

example : ok (Metar.new testDb testClock
    py!"METAR PALH 170933Z 00000KT 2SM BR FEW002 M14/M16 A2980 BECMG AT1000 1/2SM RMK AO2 T11441156"
    ⟨none, none, false⟩) (fun r =>
    (ok (r.weatherTrends.getItem 0) fun v1 => same (.ofStr v1.code) (.str py!"BECMG AT1000 1/2SM")) &&
    (ok (r.weatherTrends.getItem 0) fun v1 => same (.ofStr v1.core.prevailing.code) (.str py!"1/2SM")) &&
    (ok (r.weatherTrends.getItem 0) fun v1 => same (.ofFloat v1.core.prevailing.vis) (num 926 1)) &&
    (ok (r.weatherTrends.getItem 0) fun v1 => same (.ofFloat (inKilometers v1.core.prevailing.vis)) (num 8340666509890159 9007199254740992)) &&
    (ok (r.weatherTrends.getItem 0) fun v1 => same (.ofFloat (inSeaMiles v1.core.prevailing.vis)) (num 9007199254740991 18014398509481984)) &&
    (ok (r.weatherTrends.getItem 0) fun v1 => same (.ofFloat (inFeet v1.core.prevailing.vis)) (num 835094953510971 274877906944)) &&
    (ok (r.weatherTrends.getItem 0) fun v1 => same (.bool v1.core.prevailing.cavok) (.bool false)) &&
    (ok (r.weatherTrends.getItem 0) fun v1 => same (.ofStr (v1.core.prevailing.direction.cardinal)) (.none)) &&
    (ok (r.weatherTrends.getItem 0) fun v1 => same (.ofFloat v1.core.prevailing.direction.value) (.none)) &&
    (ok (r.weatherTrends.getItem 0) fun v1 => same (.ofFloat (v1.core.prevailing.direction.inRadians)) (.none)) &&
    (ok (r.weatherTrends.getItem 0) fun v1 => same (.str v1.core.prevailing.str) (.str py!"0.9 km")) &&
    (ok (r.weatherTrends.getItem 0) fun v1 => same v1.core.prevailing.dictPrev (.dict [(py!"cavok", .bool false), (py!"code", .str py!"1/2SM"), (py!"direction", .dict [(py!"cardinal", .none), (py!"direction", .none), (py!"units", .str py!"degrees"), (py!"variable", .bool false)]), (py!"visibility", .dict [(py!"distance", num 926 1), (py!"units", .str py!"meters")])])) &&
    (raises (r.weatherTrends.getItem 1) .index)) = true := by decide +kernel

/-! `test_weather_trend_visibility_from_kilometers` (tests/metar/test_weather_trend_visibility.py 113-142) -/

example : ok (Metar.new testDb testClock
    py!"METAR SCAT 210900Z 18005KT 10KM OVC027/// 16/12 Q1013 BECMG 5KM"
    ⟨none, none, false⟩) (fun r =>
    (ok (r.weatherTrends.getItem 0) fun v1 => same (.ofStr v1.code) (.str py!"BECMG 5KM")) &&
    (ok (r.weatherTrends.getItem 0) fun v1 => same (.ofStr v1.core.prevailing.code) (.str py!"5KM")) &&
    (ok (r.weatherTrends.getItem 0) fun v1 => same (.ofFloat v1.core.prevailing.vis) (num 5000 1)) &&
    (ok (r.weatherTrends.getItem 0) fun v1 => same (.ofFloat (inKilometers v1.core.prevailing.vis)) (num 5 1)) &&
    (ok (r.weatherTrends.getItem 0) fun v1 => same (.ofFloat (inSeaMiles v1.core.prevailing.vis)) (num 6079373147098401 2251799813685248)) &&
    (ok (r.weatherTrends.getItem 0) fun v1 => same (.ofFloat (inFeet v1.core.prevailing.vis)) (num 1127288004199475 68719476736)) &&
    (ok (r.weatherTrends.getItem 0) fun v1 => same (.bool v1.core.prevailing.cavok) (.bool false)) &&
    (ok (r.weatherTrends.getItem 0) fun v1 => same (.ofStr (v1.core.prevailing.direction.cardinal)) (.none)) &&
    (ok (r.weatherTrends.getItem 0) fun v1 => same (.ofFloat v1.core.prevailing.direction.value) (.none)) &&
    (ok (r.weatherTrends.getItem 0) fun v1 => same (.ofFloat (v1.core.prevailing.direction.inRadians)) (.none)) &&
    (ok (r.weatherTrends.getItem 0) fun v1 => same (.str v1.core.prevailing.str) (.str py!"5.0 km")) &&
    (ok (r.weatherTrends.getItem 0) fun v1 => same v1.core.prevailing.dictPrev (.dict [(py!"cavok", .bool false), (py!"code", .str py!"5KM"), (py!"direction", .dict [(py!"cardinal", .none), (py!"direction", .none), (py!"units", .str py!"degrees"), (py!"variable", .bool false)]), (py!"visibility", .dict [(py!"distance", num 5000 1), (py!"units", .str py!"meters")])])) &&
    (raises (r.weatherTrends.getItem 1) .index)) = true := by decide +kernel

/-! `test_weather_trend_visibility_from_cavok` (tests/metar/test_weather_trend_visibility.py 145-176) -/

example : ok (Metar.new testDb testClock
    py!"METAR SAAR 222000Z 13011KT 100V160 9999 FEW030 32/15 Q1012 BECMG AT2100 CAVOK RMK PP000"
    ⟨none, none, false⟩) (fun r =>
    (ok (r.weatherTrends.getItem 0) fun v1 => same (.ofStr v1.code) (.str py!"BECMG AT2100 CAVOK")) &&
    (ok (r.weatherTrends.getItem 0) fun v1 => same (.ofStr v1.core.prevailing.code) (.str py!"CAVOK")) &&
    (ok (r.weatherTrends.getItem 0) fun v1 => same (.ofFloat v1.core.prevailing.vis) (num 10000 1)) &&
    (ok (r.weatherTrends.getItem 0) fun v1 => same (.ofFloat (inKilometers v1.core.prevailing.vis)) (num 10 1)) &&
    (ok (r.weatherTrends.getItem 0) fun v1 => same (.ofFloat (inSeaMiles v1.core.prevailing.vis)) (num 6079373147098401 1125899906842624)) &&
    (ok (r.weatherTrends.getItem 0) fun v1 => same (.ofFloat (inFeet v1.core.prevailing.vis)) (num 1127288004199475 34359738368)) &&
    (ok (r.weatherTrends.getItem 0) fun v1 => same (.bool v1.core.prevailing.cavok) (.bool true)) &&
    (ok (r.weatherTrends.getItem 0) fun v1 => same (.ofStr (v1.core.prevailing.direction.cardinal)) (.none)) &&
    (ok (r.weatherTrends.getItem 0) fun v1 => same (.ofFloat v1.core.prevailing.direction.value) (.none)) &&
    (ok (r.weatherTrends.getItem 0) fun v1 => same (.ofFloat (v1.core.prevailing.direction.inRadians)) (.none)) &&
    (ok (r.weatherTrends.getItem 0) fun v1 => same (.str v1.core.prevailing.str) (.str py!"Ceiling and Visibility OK")) &&
    (ok (r.weatherTrends.getItem 0) fun v1 => same v1.core.prevailing.dictPrev (.dict [(py!"cavok", .bool true), (py!"code", .str py!"CAVOK"), (py!"direction", .dict [(py!"cardinal", .none), (py!"direction", .none), (py!"units", .str py!"degrees"), (py!"variable", .bool false)]), (py!"visibility", .dict [(py!"distance", num 10000 1), (py!"units", .str py!"meters")])])) &&
    (raises (r.weatherTrends.getItem 1) .index)) = true := by decide +kernel

/-! `test_no_weather_trend_visibility` (tests/metar/test_weather_trend_visibility.py 179-210) -/

example : ok (Metar.new testDb testClock
    py!"METAR PALH 170933Z 00000KT BR FEW002 M14/M16 A2980 NOSIG RMK AO2 T11441156"
    ⟨none, none, false⟩) (fun r =>
    (ok (r.weatherTrends.getItem 0) fun v1 => same (.ofStr v1.code) (.str py!"NOSIG")) &&
    (ok (r.weatherTrends.getItem 0) fun v1 => same (.ofStr v1.core.prevailing.code) (.none)) &&
    (ok (r.weatherTrends.getItem 0) fun v1 => same (.ofFloat v1.core.prevailing.vis) (.none)) &&
    (ok (r.weatherTrends.getItem 0) fun v1 => same (.ofFloat (inKilometers v1.core.prevailing.vis)) (.none)) &&
    (ok (r.weatherTrends.getItem 0) fun v1 => same (.ofFloat (inSeaMiles v1.core.prevailing.vis)) (.none)) &&
    (ok (r.weatherTrends.getItem 0) fun v1 => same (.ofFloat (inFeet v1.core.prevailing.vis)) (.none)) &&
    (ok (r.weatherTrends.getItem 0) fun v1 => same (.bool v1.core.prevailing.cavok) (.bool false)) &&
    (ok (r.weatherTrends.getItem 0) fun v1 => same (.ofStr (v1.core.prevailing.direction.cardinal)) (.none)) &&
    (ok (r.weatherTrends.getItem 0) fun v1 => same (.ofFloat v1.core.prevailing.direction.value) (.none)) &&
    (ok (r.weatherTrends.getItem 0) fun v1 => same (.ofFloat (v1.core.prevailing.direction.inRadians)) (.none)) &&
    (ok (r.weatherTrends.getItem 0) fun v1 => same (.str v1.core.prevailing.str) (.str [])) &&
    (ok (r.weatherTrends.getItem 0) fun v1 => same v1.core.prevailing.dictPrev (.dict [(py!"cavok", .bool false), (py!"code", .none), (py!"direction", .dict [(py!"cardinal", .none), (py!"direction", .none), (py!"units", .str py!"degrees"), (py!"variable", .bool false)]), (py!"visibility", .dict [(py!"distance", .none), (py!"units", .str py!"meters")])])) &&
    (raises (r.weatherTrends.getItem 1) .index)) = true := by decide +kernel

end Verif.Tests
