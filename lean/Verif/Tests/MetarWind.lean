import Verif.Tests.Database

/-
The assertions of tests/metar/test_wind.py, checked of the model. Generated by tools/tests2lean.py.
-/

namespace Verif.Tests

/-! `test_wind_with_gust` (tests/metar/test_wind.py 6-34) -/

example : ok (Metar.new testDb testClock
    py!"METAR SEQM 162000Z 09012G22KT 310V020 9999 VCSH SCT030 BKN200 21/12 Q1022 NOSIG RMK A3018"
    ⟨none, none, false⟩) (fun r =>
    (same (.ofStr r.core.wind.code) (.str py!"09012G22KT")) &&
    (same (.ofStr (r.core.wind.direction.cardinal)) (.str py!"E")) &&
    (same (.ofFloat r.core.wind.direction.value) (num 90 1)) &&
    (same (.ofFloat (r.core.wind.direction.inRadians)) (num 884279719003555 562949953421312)) &&
    (same (.bool r.core.wind.direction.variable_) (.bool false)) &&
    (same (.ofFloat r.core.wind.speed) (num 12 1)) &&
    (same (.ofFloat (inMps r.core.wind.speed)) (num 3475277682430235 562949953421312)) &&
    (same (.ofFloat (inKph r.core.wind.speed)) (num 6255499882417619 281474976710656)) &&
    (same (.ofFloat r.core.wind.gust) (num 22 1)) &&
    (same (.ofFloat (inMps r.core.wind.gust)) (num 6371342417788765 562949953421312)) &&
    (same (.ofFloat (inMiph r.core.wind.gust)) (num 7126147021379951 281474976710656)) &&
    (same (.str r.core.wind.str) (.str py!"E (90.0°) 12.0 kt gust of 22.0 kt")) &&
    (same r.core.wind.dict (.dict [(py!"code", .str py!"09012G22KT"), (py!"direction", .dict [(py!"cardinal", .str py!"E"), (py!"direction", num 90 1), (py!"units", .str py!"degrees"), (py!"variable", .bool false)]), (py!"gust", .dict [(py!"speed", num 22 1), (py!"units", .str py!"knot")]), (py!"speed", .dict [(py!"speed", num 12 1), (py!"units", .str py!"knot")])]))) = true := by decide +kernel

/-! `test_wind_without_gust` (tests/metar/test_wind.py 37-65) -/

example : ok (Metar.new testDb testClock
    py!"METAR SEQM 162000Z 34012KT 310V020 9999 VCSH SCT030 BKN200 21/12 Q1022 NOSIG RMK A3018"
    ⟨none, none, false⟩) (fun r =>
    (same (.ofStr r.core.wind.code) (.str py!"34012KT")) &&
    (same (.ofStr (r.core.wind.direction.cardinal)) (.str py!"NNW")) &&
    (same (.ofFloat r.core.wind.direction.value) (num 340 1)) &&
    (same (.ofFloat (r.core.wind.direction.inRadians)) (num 417576533973901 70368744177664)) &&
    (same (.bool r.core.wind.direction.variable_) (.bool false)) &&
    (same (.ofFloat r.core.wind.speed) (num 12 1)) &&
    (same (.ofFloat (inMps r.core.wind.speed)) (num 3475277682430235 562949953421312)) &&
    (same (.ofFloat (inKph r.core.wind.speed)) (num 6255499882417619 281474976710656)) &&
    (same (.ofFloat r.core.wind.gust) (.none)) &&
    (same (.ofFloat (inMps r.core.wind.gust)) (.none)) &&
    (same (.ofFloat (inMiph r.core.wind.gust)) (.none)) &&
    (same (.str r.core.wind.str) (.str py!"NNW (340.0°) 12.0 kt")) &&
    (same r.core.wind.dict (.dict [(py!"code", .str py!"34012KT"), (py!"direction", .dict [(py!"cardinal", .str py!"NNW"), (py!"direction", num 340 1), (py!"units", .str py!"degrees"), (py!"variable", .bool false)]), (py!"gust", .dict [(py!"speed", .none), (py!"units", .str py!"knot")]), (py!"speed", .dict [(py!"speed", num 12 1), (py!"units", .str py!"knot")])]))) = true := by decide +kernel

/-! `test_variable_wind` (tests/metar/test_wind.py 68-96) -/

example : ok (Metar.new testDb testClock
    py!"METAR SEQM 162000Z VRB02KT 9999 VCSH SCT030 BKN200 21/12 Q1022 NOSIG RMK A3018"
    ⟨none, none, false⟩) (fun r =>
    (same (.ofStr r.core.wind.code) (.str py!"VRB02KT")) &&
    (same (.ofStr (r.core.wind.direction.cardinal)) (.none)) &&
    (same (.ofFloat r.core.wind.direction.value) (.none)) &&
    (same (.ofFloat (r.core.wind.direction.inRadians)) (.none)) &&
    (same (.bool r.core.wind.direction.variable_) (.bool true)) &&
    (same (.ofFloat r.core.wind.speed) (num 2 1)) &&
    (same (.ofFloat (inMps r.core.wind.speed)) (num 4633703576573647 4503599627370496)) &&
    (same (.ofFloat (inKph r.core.wind.speed)) (num 8340666509890159 2251799813685248)) &&
    (same (.ofFloat r.core.wind.gust) (.none)) &&
    (same (.ofFloat (inMps r.core.wind.gust)) (.none)) &&
    (same (.ofFloat (inMiph r.core.wind.gust)) (.none)) &&
    (same (.str r.core.wind.str) (.str py!"variable wind 2.0 kt")) &&
    (same r.core.wind.dict (.dict [(py!"code", .str py!"VRB02KT"), (py!"direction", .dict [(py!"cardinal", .none), (py!"direction", .none), (py!"units", .str py!"degrees"), (py!"variable", .bool true)]), (py!"gust", .dict [(py!"speed", .none), (py!"units", .str py!"knot")]), (py!"speed", .dict [(py!"speed", num 2 1), (py!"units", .str py!"knot")])]))) = true := by decide +kernel

/-! `test_more_than_100mps_wind_speed` (tests/metar/test_wind.py 99-127) -/

example : ok (Metar.new testDb testClock
    py!"SPECI KMIA 281410Z 170P149GP159MPS 10SM BKN022 BKN039 BKN055 OVC250 29/25 A2970 RMK AO2 PK WND 17031/1409 T02940250"
    ⟨none, none, false⟩) (fun r =>
    (same (.ofStr r.core.wind.code) (.str py!"170P149GP159MPS")) &&
    (same (.ofStr (r.core.wind.direction.cardinal)) (.str py!"S")) &&
    (same (.ofFloat r.core.wind.direction.value) (num 170 1)) &&
    (approx (.ofFloat (r.core.wind.direction.inRadians)) (mkRat (835153144399119) 281474976710656) (mkRat (4722366482869645) 4722366482869645213696)) &&
    (same (.bool r.core.wind.direction.variable_) (.bool false)) &&
    (approx (.ofFloat r.core.wind.speed) (mkRat (636909328741339) 2199023255552) (mkRat (4722366482869645) 4722366482869645213696)) &&
    (approx (.ofFloat (inMps r.core.wind.speed)) (mkRat (149) 1) (mkRat (4722366482869645) 4722366482869645213696)) &&
    (approx (.ofFloat (inKph r.core.wind.speed)) (mkRat (4718224297112371) 8796093022208) (mkRat (4722366482869645) 4722366482869645213696)) &&
    (approx (.ofFloat r.core.wind.gust) (mkRat (2718619729372895) 8796093022208) (mkRat (4722366482869645) 4722366482869645213696)) &&
    (same (.ofFloat (inMps r.core.wind.gust)) (num 159 1)) &&
    (approx (.ofFloat (inMiph r.core.wind.gust)) (mkRat (3128533145331507) 8796093022208) (mkRat (4722366482869645) 4722366482869645213696)) &&
    (same (.str r.core.wind.str) (.str py!"S (170.0°) 289.6 kt gust of 309.1 kt")) &&
    (same r.core.wind.dict (.dict [(py!"code", .str py!"170P149GP159MPS"), (py!"direction", .dict [(py!"cardinal", .str py!"S"), (py!"direction", num 170 1), (py!"units", .str py!"degrees"), (py!"variable", .bool false)]), (py!"gust", .dict [(py!"speed", num 1359309851352531 4398046511104), (py!"units", .str py!"knot")]), (py!"speed", .dict [(py!"speed", num 1273818665732875 4398046511104), (py!"units", .str py!"knot")])]))) = true := by decide +kernel

/-! `test_no_wind` (tests/metar/test_wind.py 130-158) -/

example : ok (Metar.new testDb testClock
    py!"METAR SEQM 162000Z /////KT 9999 VCSH SCT030 BKN200 21/12 Q1022 NOSIG RMK A3018"
    ⟨none, none, false⟩) (fun r =>
    (same (.ofStr r.core.wind.code) (.str py!"/////KT")) &&
    (same (.ofFloat r.core.wind.direction.value) (.none)) &&
    (same (.ofStr (r.core.wind.direction.cardinal)) (.none)) &&
    (same (.ofFloat (r.core.wind.direction.inRadians)) (.none)) &&
    (same (.bool r.core.wind.direction.variable_) (.bool false)) &&
    (same (.ofFloat r.core.wind.speed) (.none)) &&
    (same (.ofFloat (inMps r.core.wind.speed)) (.none)) &&
    (same (.ofFloat (inKph r.core.wind.speed)) (.none)) &&
    (same (.ofFloat r.core.wind.gust) (.none)) &&
    (same (.ofFloat (inMps r.core.wind.gust)) (.none)) &&
    (same (.ofFloat (inMiph r.core.wind.gust)) (.none)) &&
    (same (.str r.core.wind.str) (.str [])) &&
    (same r.core.wind.dict (.dict [(py!"code", .str py!"/////KT"), (py!"direction", .dict [(py!"cardinal", .none), (py!"direction", .none), (py!"units", .str py!"degrees"), (py!"variable", .bool false)]), (py!"gust", .dict [(py!"speed", .none), (py!"units", .str py!"knot")]), (py!"speed", .dict [(py!"speed", .none), (py!"units", .str py!"knot")])]))) = true := by decide +kernel

/-! `test_wind_variation` (tests/metar/test_wind.py 161-188) -/

example : ok (Metar.new testDb testClock
    py!"METAR BIBD 191100Z 03002KT 310V020 8000 RA BR VCTS SCT008CB OVC020 04/03 Q1013"
    ⟨none, none, false⟩) (fun r =>
    (same (.ofStr (r.windVariation.from_.cardinal)) (.str py!"NW")) &&
    (same (.ofFloat r.windVariation.from_.value) (num 310 1)) &&
    (same (.ofFloat (r.windVariation.from_.inRadians)) (num 6091704730913379 1125899906842624)) &&
    (same (.ofStr (r.windVariation.to.cardinal)) (.str py!"NNE")) &&
    (same (.ofFloat r.windVariation.to.value) (num 20 1)) &&
    (same (.ofFloat (r.windVariation.to.inRadians)) (num 6288211335136391 18014398509481984)) &&
    (same (.str r.windVariation.str) (.str py!"from NW (310.0°) to NNE (20.0°)")) &&
    (same r.windVariation.dict (.dict [(py!"code", .str py!"310V020"), (py!"from_", .dict [(py!"cardinal", .str py!"NW"), (py!"direction", num 310 1), (py!"units", .str py!"degrees"), (py!"variable", .bool false)]), (py!"to", .dict [(py!"cardinal", .str py!"NNE"), (py!"direction", num 20 1), (py!"units", .str py!"degrees"), (py!"variable", .bool false)])]))) = true := by decide +kernel

/-! `test_no_wind_variation` (tests/metar/test_wind.py 191-218) -/

example : ok (Metar.new testDb testClock
    py!"METAR BIBD 191100Z 03002KT 8000 RA BR VCTS SCT008CB OVC020 04/03 Q1013"
    ⟨none, none, false⟩) (fun r =>
    (same (.ofStr (r.windVariation.from_.cardinal)) (.none)) &&
    (same (.ofFloat r.windVariation.from_.value) (.none)) &&
    (same (.ofFloat (r.windVariation.from_.inRadians)) (.none)) &&
    (same (.ofStr (r.windVariation.to.cardinal)) (.none)) &&
    (same (.ofFloat r.windVariation.to.value) (.none)) &&
    (same (.ofFloat (r.windVariation.to.inRadians)) (.none)) &&
    (same (.str r.windVariation.str) (.str [])) &&
    (same r.windVariation.dict (.dict [(py!"code", .none), (py!"from_", .dict [(py!"cardinal", .none), (py!"direction", .none), (py!"units", .str py!"degrees"), (py!"variable", .bool false)]), (py!"to", .dict [(py!"cardinal", .none), (py!"direction", .none), (py!"units", .str py!"degrees"), (py!"variable", .bool false)])]))) = true := by decide +kernel

end Verif.Tests
