import Verif.Tests.Database

/-
The assertions of tests/taf/test_cloud.py, checked of the model. Generated by tools/tests2lean.py.
-/

namespace Verif.Tests

/-! `test_cloud_layers` (tests/taf/test_cloud.py 7-76) -/

example : ok (Taf.new testDb testClock
    py!"\n    TAF RPMD 021100Z 0212/0312 36008KT 9999 FEW016TCU SCT090 BKN260\n        TEMPO 0212/0218 03011KT 9000 -RA SCT015CB BKN090\n    "
    ⟨none, none, false⟩) (fun r =>
    (same (ostrs (r.core.clouds.list.map (·.code))) (.list [.str py!"FEW016TCU", .str py!"SCT090", .str py!"BKN260"])) &&
    (same (.str (r.core.clouds.str fun x => x.str)) (.str py!"a few at 1600.0 feet of towering cumulus | scattered at 9000.0 feet | broken at 26000.0 feet")) &&
    (ok (ceiling r.core.clouds.list) fun v1 => same (.bool v1) (.bool false)) &&
    (ok (r.core.clouds.asDict fun x => .ok (x.dict)) fun v2 => same v2 (.dict [(py!"first", .dict [(py!"code", .str py!"FEW016TCU"), (py!"cover", .str py!"a few"), (py!"height", num 8579357290140795 17592186044416), (py!"height_units", .str py!"meters"), (py!"oktas", .str py!"1-2"), (py!"type", .str py!"towering cumulus")]), (py!"second", .dict [(py!"code", .str py!"SCT090"), (py!"cover", .str py!"scattered"), (py!"height", num 3016180297315123 1099511627776), (py!"height_units", .str py!"meters"), (py!"oktas", .str py!"3-4"), (py!"type", .none)]), (py!"third", .dict [(py!"code", .str py!"BKN260"), (py!"cover", .str py!"broken"), (py!"height", num 8713409747799245 1099511627776), (py!"height_units", .str py!"meters"), (py!"oktas", .str py!"5-7"), (py!"type", .none)])])) &&
    (ok (r.core.clouds.getItem 0) fun v3 => same (.ofStr v3.code) (.str py!"FEW016TCU")) &&
    (ok (r.core.clouds.getItem 0) fun v4 => same (.ofStr v4.cover) (.str py!"a few")) &&
    (ok (r.core.clouds.getItem 0) fun v5 => same (.ofStr v5.oktas) (.str py!"1-2")) &&
    (ok (r.core.clouds.getItem 0) fun v6 => approx (.ofFloat (inFeet v6.height)) (mkRat (1600) 1) (mkRat (4722366482869645) 4722366482869645213696)) &&
    (ok (r.core.clouds.getItem 0) fun v7 => same (.ofFloat v7.height) (num 8579357290140795 17592186044416)) &&
    (ok (r.core.clouds.getItem 0) fun v8 => same (.ofFloat (inKilometers v8.height)) (num 4392630932552087 9007199254740992)) &&
    (ok (r.core.clouds.getItem 0) fun v9 => same (.ofFloat (inSeaMiles v9.height)) (num 4743661914203117 18014398509481984)) &&
    (ok (r.core.clouds.getItem 0) fun v10 => same (.ofStr v10.type) (.str py!"towering cumulus")) &&
    (ok (r.core.clouds.getItem 1) fun v11 => same (.ofStr v11.code) (.str py!"SCT090")) &&
    (ok (r.core.clouds.getItem 1) fun v12 => same (.ofStr v12.cover) (.str py!"scattered")) &&
    (ok (r.core.clouds.getItem 1) fun v13 => same (.ofStr v13.oktas) (.str py!"3-4")) &&
    (ok (r.core.clouds.getItem 1) fun v14 => approx (.ofFloat (inFeet v14.height)) (mkRat (9000) 1) (mkRat (4722366482869645) 4722366482869645213696)) &&
    (ok (r.core.clouds.getItem 1) fun v15 => same (.ofFloat v15.height) (num 3016180297315123 1099511627776)) &&
    (ok (r.core.clouds.getItem 1) fun v16 => same (.ofFloat (inKilometers v16.height)) (num 1544284312225343 562949953421312)) &&
    (ok (r.core.clouds.getItem 1) fun v17 => same (.ofFloat (inSeaMiles v17.height)) (num 6670774566848133 4503599627370496)) &&
    (ok (r.core.clouds.getItem 1) fun v18 => same (.ofStr v18.type) (.none)) &&
    (ok (r.core.clouds.getItem 2) fun v19 => same (.ofStr v19.code) (.str py!"BKN260")) &&
    (ok (r.core.clouds.getItem 2) fun v20 => same (.ofStr v20.cover) (.str py!"broken")) &&
    (ok (r.core.clouds.getItem 2) fun v21 => same (.ofStr v21.oktas) (.str py!"5-7")) &&
    (ok (r.core.clouds.getItem 2) fun v22 => approx (.ofFloat (inFeet v22.height)) (mkRat (26000) 1) (mkRat (4722366482869645) 4722366482869645213696)) &&
    (ok (r.core.clouds.getItem 2) fun v23 => same (.ofFloat v23.height) (num 8713409747799245 1099511627776)) &&
    (ok (r.core.clouds.getItem 2) fun v24 => same (.ofFloat (inKilometers v24.height)) (num 8922531581746427 1125899906842624)) &&
    (ok (r.core.clouds.getItem 2) fun v25 => same (.ofFloat (inSeaMiles v25.height)) (num 4817781631612541 1125899906842624)) &&
    (ok (r.core.clouds.getItem 2) fun v26 => same (.ofStr v26.type) (.none)) &&
    (raises (r.core.clouds.getItem 3) .index)) = true := by decide +kernel

end Verif.Tests
