import Verif.Tests.Database

/-
The assertions of tests/metar/test_cloud.py, checked of the model. Generated by tools/tests2lean.py.
-/

namespace Verif.Tests

/-! `test_two_cloud_layers` (tests/metar/test_cloud.py 7-50) -/

example : ok (Metar.new testDb testClock
    py!"METAR BIAR 190800Z 20015KT 9999 FEW049 BKN056 10/03 Q1016"
    ⟨none, none, false⟩) (fun r =>
    (same (ostrs (r.core.clouds.list.map (·.code))) (.list [.str py!"FEW049", .str py!"BKN056"])) &&
    (same (.str (r.core.clouds.str fun x => x.str)) (.str py!"a few at 4900.0 feet | broken at 5600.0 feet")) &&
    (ok (ceiling r.core.clouds.list) fun v1 => same (.bool v1) (.bool false)) &&
    (ok (r.core.clouds.getItem 0) fun v2 => same (.ofStr v2.code) (.str py!"FEW049")) &&
    (ok (r.core.clouds.getItem 0) fun v3 => same (.ofStr v3.cover) (.str py!"a few")) &&
    (ok (r.core.clouds.getItem 0) fun v4 => same (.ofStr v4.oktas) (.str py!"1-2")) &&
    (ok (r.core.clouds.getItem 0) fun v5 => same (.ofFloat (inFeet v5.height)) (num 5387606976102399 1099511627776)) &&
    (ok (r.core.clouds.getItem 0) fun v6 => same (.ofFloat v6.height) (num 3284285212632023 2199023255552)) &&
    (ok (r.core.clouds.getItem 0) fun v7 => same (.ofFloat (inKilometers v7.height)) (num 6726216115470383 4503599627370496)) &&
    (ok (r.core.clouds.getItem 0) fun v8 => same (.ofFloat (inSeaMiles v8.height)) (num 7263732306123523 9007199254740992)) &&
    (ok (r.core.clouds.getItem 0) fun v9 => same (.ofStr v9.type) (.none)) &&
    (ok (r.core.clouds.getItem 0) fun v10 => same v10.dict (.dict [(py!"code", .str py!"FEW049"), (py!"cover", .str py!"a few"), (py!"height", num 3284285212632023 2199023255552), (py!"height_units", .str py!"meters"), (py!"oktas", .str py!"1-2"), (py!"type", .none)])) &&
    (ok (r.core.clouds.getItem 1) fun v11 => same (.ofStr v11.code) (.str py!"BKN056")) &&
    (ok (r.core.clouds.getItem 1) fun v12 => same (.ofStr v12.cover) (.str py!"broken")) &&
    (ok (r.core.clouds.getItem 1) fun v13 => same (.ofStr v13.oktas) (.str py!"5-7")) &&
    (ok (r.core.clouds.getItem 1) fun v14 => same (.ofFloat (inFeet v14.height)) (num 5600 1)) &&
    (ok (r.core.clouds.getItem 1) fun v15 => same (.ofFloat v15.height) (num 1876734407218299 1099511627776)) &&
    (ok (r.core.clouds.getItem 1) fun v16 => same (.ofFloat (inKilometers v16.height)) (num 7687104131966153 4503599627370496)) &&
    (ok (r.core.clouds.getItem 1) fun v17 => same (.ofFloat (inSeaMiles v17.height)) (num 8301408349855455 9007199254740992)) &&
    (ok (r.core.clouds.getItem 1) fun v18 => same (.ofStr v18.type) (.none)) &&
    (ok (r.core.clouds.getItem 1) fun v19 => same v19.dict (.dict [(py!"code", .str py!"BKN056"), (py!"cover", .str py!"broken"), (py!"height", num 1876734407218299 1099511627776), (py!"height_units", .str py!"meters"), (py!"oktas", .str py!"5-7"), (py!"type", .none)])) &&
    (raises (r.core.clouds.getItem 2) .index)) = true := by decide +kernel

/-! `test_three_cloud_layers` (tests/metar/test_cloud.py 53-118) -/

example : ok (Metar.new testDb testClock
    py!"METAR KMIA 191458Z 33006KT 5SM R09/1800V4500FT -TSRA BR FEW013 BKN021CB OVC040 23/21 A3003 RMK AO2 OCNL LTGICCG OHD TS OHD MOV SE P0007 T02280211"
    ⟨none, none, false⟩) (fun r =>
    (same (ostrs (r.core.clouds.list.map (·.code))) (.list [.str py!"FEW013", .str py!"BKN021CB", .str py!"OVC040"])) &&
    (same (.str (r.core.clouds.str fun x => x.str)) (.str py!"a few at 1300.0 feet | broken at 2100.0 feet of cumulonimbus | overcast at 4000.0 feet")) &&
    (ok (ceiling r.core.clouds.list) fun v1 => same (.bool v1) (.bool false)) &&
    (ok (r.core.clouds.getItem 0) fun v2 => same (.ofStr v2.code) (.str py!"FEW013")) &&
    (ok (r.core.clouds.getItem 0) fun v3 => same (.ofStr v3.cover) (.str py!"a few")) &&
    (ok (r.core.clouds.getItem 0) fun v4 => same (.ofStr v4.oktas) (.str py!"1-2")) &&
    (ok (r.core.clouds.getItem 0) fun v5 => same (.ofFloat (inFeet v5.height)) (num 1300 1)) &&
    (ok (r.core.clouds.getItem 0) fun v6 => same (.ofFloat v6.height) (num 1742681949559849 4398046511104)) &&
    (ok (r.core.clouds.getItem 0) fun v7 => same (.ofFloat (inKilometers v7.height)) (num 3569012632698571 9007199254740992)) &&
    (ok (r.core.clouds.getItem 0) fun v8 => same (.ofFloat (inSeaMiles v8.height)) (num 7708450610580065 36028797018963968)) &&
    (ok (r.core.clouds.getItem 0) fun v9 => same (.ofStr v9.type) (.none)) &&
    (ok (r.core.clouds.getItem 0) fun v10 => same v10.dict (.dict [(py!"code", .str py!"FEW013"), (py!"cover", .str py!"a few"), (py!"height", num 1742681949559849 4398046511104), (py!"height_units", .str py!"meters"), (py!"oktas", .str py!"1-2"), (py!"type", .none)])) &&
    (ok (r.core.clouds.getItem 1) fun v11 => same (.ofStr v11.code) (.str py!"BKN021CB")) &&
    (ok (r.core.clouds.getItem 1) fun v12 => same (.ofStr v12.cover) (.str py!"broken")) &&
    (ok (r.core.clouds.getItem 1) fun v13 => same (.ofStr v13.oktas) (.str py!"5-7")) &&
    (ok (r.core.clouds.getItem 1) fun v14 => same (.ofFloat (inFeet v14.height)) (num 2100 1)) &&
    (ok (r.core.clouds.getItem 1) fun v15 => same (.ofFloat v15.height) (num 5630203221654897 8796093022208)) &&
    (ok (r.core.clouds.getItem 1) fun v16 => same (.ofFloat (inKilometers v16.height)) (num 5765328098974615 9007199254740992)) &&
    (ok (r.core.clouds.getItem 1) fun v17 => same (.ofFloat (inSeaMiles v17.height)) (num 6226056262391591 18014398509481984)) &&
    (ok (r.core.clouds.getItem 1) fun v18 => same (.ofStr v18.type) (.str py!"cumulonimbus")) &&
    (ok (r.core.clouds.getItem 1) fun v19 => same v19.dict (.dict [(py!"code", .str py!"BKN021CB"), (py!"cover", .str py!"broken"), (py!"height", num 5630203221654897 8796093022208), (py!"height_units", .str py!"meters"), (py!"oktas", .str py!"5-7"), (py!"type", .str py!"cumulonimbus")])) &&
    (ok (r.core.clouds.getItem 2) fun v20 => same (.ofStr v20.code) (.str py!"OVC040")) &&
    (ok (r.core.clouds.getItem 2) fun v21 => same (.ofStr v21.cover) (.str py!"overcast")) &&
    (ok (r.core.clouds.getItem 2) fun v22 => same (.ofStr v22.oktas) (.str py!"8")) &&
    (ok (r.core.clouds.getItem 2) fun v23 => same (.ofFloat (inFeet v23.height)) (num 8796093022207999 2199023255552)) &&
    (ok (r.core.clouds.getItem 2) fun v24 => same (.ofFloat v24.height) (num 5362098306337997 4398046511104)) &&
    (ok (r.core.clouds.getItem 2) fun v25 => same (.ofFloat (inKilometers v25.height)) (num 5490788665690109 4503599627370496)) &&
    (ok (r.core.clouds.getItem 2) fun v26 => same (.ofFloat (inSeaMiles v26.height)) (num 5929577392753897 9007199254740992)) &&
    (ok (r.core.clouds.getItem 2) fun v27 => same (.ofStr v27.type) (.none)) &&
    (ok (r.core.clouds.getItem 2) fun v28 => same v28.dict (.dict [(py!"code", .str py!"OVC040"), (py!"cover", .str py!"overcast"), (py!"height", num 5362098306337997 4398046511104), (py!"height_units", .str py!"meters"), (py!"oktas", .str py!"8"), (py!"type", .none)])) &&
    (raises (r.core.clouds.getItem 4) .range)) = true := by decide +kernel

/-! `test_no_clouds` (tests/metar/test_cloud.py 121-130) -/

example : ok (Metar.new testDb testClock
    py!"METAR MROC 190700Z 11009KT CAVOK 22/19 A2997 NOSIG"
    ⟨none, none, false⟩) (fun r =>
    (same (ostrs (r.core.clouds.list.map (·.code))) (.list [])) &&
    (same (.str (r.core.clouds.str fun x => x.str)) (.str [])) &&
    (raises (r.core.clouds.getItem 0) .index) &&
    (raises (r.core.clouds.getItem 1) .index) &&
    (raises (r.core.clouds.getItem 2) .index) &&
    (raises (r.core.clouds.getItem 3) .index)) = true := by decide +kernel

/-! `test_vertical_visibility` (tests/metar/test_cloud.py 133-160) -/

example : ok (Metar.new testDb testClock
    py!"METAR BIHN 051900Z AUTO 33008KT 1000 +SN VV/// M02/M04 Q1006"
    ⟨none, none, false⟩) (fun r =>
    (same (ostrs (r.core.clouds.list.map (·.code))) (.list [.str py!"VV///"])) &&
    (same (.str (r.core.clouds.str fun x => x.str)) (.str py!"indefinite ceiling")) &&
    (ok (ceiling r.core.clouds.list) fun v1 => same (.bool v1) (.bool false)) &&
    (ok (r.core.clouds.getItem 0) fun v2 => same (.ofStr v2.code) (.str py!"VV///")) &&
    (ok (r.core.clouds.getItem 0) fun v3 => same (.ofStr v3.cover) (.str py!"indefinite ceiling")) &&
    (ok (r.core.clouds.getItem 0) fun v4 => same (.ofStr v4.oktas) (.str py!"undefined")) &&
    (ok (r.core.clouds.getItem 0) fun v5 => same (.ofFloat (inFeet v5.height)) (.none)) &&
    (ok (r.core.clouds.getItem 0) fun v6 => same (.ofFloat v6.height) (.none)) &&
    (ok (r.core.clouds.getItem 0) fun v7 => same (.ofFloat (inKilometers v7.height)) (.none)) &&
    (ok (r.core.clouds.getItem 0) fun v8 => same (.ofFloat (inSeaMiles v8.height)) (.none)) &&
    (ok (r.core.clouds.getItem 0) fun v9 => same (.ofStr v9.type) (.none)) &&
    (ok (r.core.clouds.getItem 0) fun v10 => same v10.dict (.dict [(py!"code", .str py!"VV///"), (py!"cover", .str py!"indefinite ceiling"), (py!"height", .none), (py!"height_units", .str py!"meters"), (py!"oktas", .str py!"undefined"), (py!"type", .none)])) &&
    (raises (r.core.clouds.getItem 1) .index) &&
    (raises (r.core.clouds.getItem 2) .index)) = true := by decide +kernel

/-! `test_vertical_visibility_with_height` (tests/metar/test_cloud.py 163-190) -/

example : ok (Metar.new testDb testClock
    py!"METAR BIHN 051900Z AUTO 33008KT 1000 +SN VV005 M02/M04 Q1006"
    ⟨none, none, false⟩) (fun r =>
    (same (ostrs (r.core.clouds.list.map (·.code))) (.list [.str py!"VV005"])) &&
    (same (.str (r.core.clouds.str fun x => x.str)) (.str py!"indefinite ceiling at 500.0 feet")) &&
    (ok (ceiling r.core.clouds.list) fun v1 => same (.bool v1) (.bool false)) &&
    (ok (r.core.clouds.getItem 0) fun v2 => same (.ofStr v2.code) (.str py!"VV005")) &&
    (ok (r.core.clouds.getItem 0) fun v3 => same (.ofStr v3.cover) (.str py!"indefinite ceiling")) &&
    (ok (r.core.clouds.getItem 0) fun v4 => same (.ofStr v4.oktas) (.str py!"undefined")) &&
    (ok (r.core.clouds.getItem 0) fun v5 => same (.ofFloat (inFeet v5.height)) (num 8796093022207999 17592186044416)) &&
    (ok (r.core.clouds.getItem 0) fun v6 => same (.ofFloat v6.height) (num 5362098306337997 35184372088832)) &&
    (ok (r.core.clouds.getItem 0) fun v7 => same (.ofFloat (inKilometers v7.height)) (num 5490788665690109 36028797018963968)) &&
    (ok (r.core.clouds.getItem 0) fun v8 => same (.ofFloat (inSeaMiles v8.height)) (num 5929577392753897 72057594037927936)) &&
    (ok (r.core.clouds.getItem 0) fun v9 => same (.ofStr v9.type) (.none)) &&
    (ok (r.core.clouds.getItem 0) fun v10 => same v10.dict (.dict [(py!"code", .str py!"VV005"), (py!"cover", .str py!"indefinite ceiling"), (py!"height", num 5362098306337997 35184372088832), (py!"height_units", .str py!"meters"), (py!"oktas", .str py!"undefined"), (py!"type", .none)])) &&
    (raises (r.core.clouds.getItem 1) .index) &&
    (raises (r.core.clouds.getItem 2) .index)) = true := by decide +kernel

end Verif.Tests
