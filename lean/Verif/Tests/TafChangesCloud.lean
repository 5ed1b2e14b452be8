import Verif.Tests.Database

/-
The assertions of tests/taf/test_changes_cloud.py, checked of the model. Generated by tools/tests2lean.py.
-/

namespace Verif.Tests

/-! `test_changes_clouds` (tests/taf/test_changes_cloud.py 6-89) -/

example : ok (Taf.new testDb testClock
    py!"\n    TAF FMEE 281700Z 2818/2924 14006KT 9999 FEW030 BKN060\n        PROB40\n        TEMPO 2818/2921 4000 SHRA SCT020TCU BKN030\n        BECMG 2922/2924 RA BKN010\n    "
    ⟨none, none, false⟩) (fun r =>
    (ok (r.changes.getItem 0) fun v1 => same (ostrs (v1.core.clouds.list.map (·.code))) (.list [.str py!"SCT020TCU", .str py!"BKN030"])) &&
    (ok (r.changes.getItem 0) fun v1 => same (.str (v1.core.clouds.str fun x => x.str)) (.str py!"scattered at 2000.0 feet of towering cumulus | broken at 3000.0 feet")) &&
    (ok (r.changes.getItem 0) fun v1 => ok (ceiling v1.core.clouds.list) fun v2 => same (.bool v2) (.bool false)) &&
    (ok (r.changes.getItem 0) fun v1 => ok (v1.core.clouds.asDict fun x => .ok (x.dict)) fun v3 => same v3 (.dict [(py!"first", .dict [(py!"code", .str py!"SCT020TCU"), (py!"cover", .str py!"scattered"), (py!"height", num 5362098306337997 8796093022208), (py!"height_units", .str py!"meters"), (py!"oktas", .str py!"3-4"), (py!"type", .str py!"towering cumulus")]), (py!"second", .dict [(py!"code", .str py!"BKN030"), (py!"cover", .str py!"broken"), (py!"height", num 8043147459506995 8796093022208), (py!"height_units", .str py!"meters"), (py!"oktas", .str py!"5-7"), (py!"type", .none)])])) &&
    (ok (r.changes.getItem 0) fun v1 => ok (v1.core.clouds.getItem 0) fun v4 => same (.ofStr v4.code) (.str py!"SCT020TCU")) &&
    (ok (r.changes.getItem 0) fun v1 => ok (v1.core.clouds.getItem 0) fun v5 => same (.ofStr v5.cover) (.str py!"scattered")) &&
    (ok (r.changes.getItem 0) fun v1 => ok (v1.core.clouds.getItem 0) fun v6 => same (.ofStr v6.oktas) (.str py!"3-4")) &&
    (ok (r.changes.getItem 0) fun v1 => ok (v1.core.clouds.getItem 0) fun v7 => approx (.ofFloat (inFeet v7.height)) (mkRat (2000) 1) (mkRat (4722366482869645) 4722366482869645213696)) &&
    (ok (r.changes.getItem 0) fun v1 => ok (v1.core.clouds.getItem 0) fun v8 => same (.ofFloat v8.height) (num 5362098306337997 8796093022208)) &&
    (ok (r.changes.getItem 0) fun v1 => ok (v1.core.clouds.getItem 0) fun v9 => same (.ofFloat (inKilometers v9.height)) (num 5490788665690109 9007199254740992)) &&
    (ok (r.changes.getItem 0) fun v1 => ok (v1.core.clouds.getItem 0) fun v10 => same (.ofFloat (inSeaMiles v10.height)) (num 5929577392753897 18014398509481984)) &&
    (ok (r.changes.getItem 0) fun v1 => ok (v1.core.clouds.getItem 0) fun v11 => same (.ofStr v11.type) (.str py!"towering cumulus")) &&
    (ok (r.changes.getItem 0) fun v1 => ok (v1.core.clouds.getItem 1) fun v12 => same (.ofStr v12.code) (.str py!"BKN030")) &&
    (ok (r.changes.getItem 0) fun v1 => ok (v1.core.clouds.getItem 1) fun v13 => same (.ofStr v13.cover) (.str py!"broken")) &&
    (ok (r.changes.getItem 0) fun v1 => ok (v1.core.clouds.getItem 1) fun v14 => same (.ofStr v14.oktas) (.str py!"5-7")) &&
    (ok (r.changes.getItem 0) fun v1 => ok (v1.core.clouds.getItem 1) fun v15 => approx (.ofFloat (inFeet v15.height)) (mkRat (3000) 1) (mkRat (4722366482869645) 4722366482869645213696)) &&
    (ok (r.changes.getItem 0) fun v1 => ok (v1.core.clouds.getItem 1) fun v16 => same (.ofFloat v16.height) (num 8043147459506995 8796093022208)) &&
    (ok (r.changes.getItem 0) fun v1 => ok (v1.core.clouds.getItem 1) fun v17 => same (.ofFloat (inKilometers v17.height)) (num 8236182998535163 9007199254740992)) &&
    (ok (r.changes.getItem 0) fun v1 => ok (v1.core.clouds.getItem 1) fun v18 => same (.ofFloat (inSeaMiles v18.height)) (num 2223591522282711 4503599627370496)) &&
    (ok (r.changes.getItem 0) fun v1 => ok (v1.core.clouds.getItem 1) fun v19 => same (.ofStr v19.type) (.none)) &&
    (ok (r.changes.getItem 0) fun v1 => raises (v1.core.clouds.getItem 2) .index) &&
    (ok (r.changes.getItem 1) fun v21 => same (ostrs (v21.core.clouds.list.map (·.code))) (.list [.str py!"BKN010"])) &&
    (ok (r.changes.getItem 1) fun v21 => same (.str (v21.core.clouds.str fun x => x.str)) (.str py!"broken at 1000.0 feet")) &&
    (ok (r.changes.getItem 1) fun v21 => ok (ceiling v21.core.clouds.list) fun v22 => same (.bool v22) (.bool true)) &&
    (ok (r.changes.getItem 1) fun v21 => ok (v21.core.clouds.asDict fun x => .ok (x.dict)) fun v23 => same v23 (.dict [(py!"first", .dict [(py!"code", .str py!"BKN010"), (py!"cover", .str py!"broken"), (py!"height", num 5362098306337997 17592186044416), (py!"height_units", .str py!"meters"), (py!"oktas", .str py!"5-7"), (py!"type", .none)])])) &&
    (ok (r.changes.getItem 1) fun v21 => ok (v21.core.clouds.getItem 0) fun v24 => same (.ofStr v24.code) (.str py!"BKN010")) &&
    (ok (r.changes.getItem 1) fun v21 => ok (v21.core.clouds.getItem 0) fun v25 => same (.ofStr v25.cover) (.str py!"broken")) &&
    (ok (r.changes.getItem 1) fun v21 => ok (v21.core.clouds.getItem 0) fun v26 => same (.ofStr v26.oktas) (.str py!"5-7")) &&
    (ok (r.changes.getItem 1) fun v21 => ok (v21.core.clouds.getItem 0) fun v27 => approx (.ofFloat (inFeet v27.height)) (mkRat (1000) 1) (mkRat (4722366482869645) 4722366482869645213696)) &&
    (ok (r.changes.getItem 1) fun v21 => ok (v21.core.clouds.getItem 0) fun v28 => same (.ofFloat v28.height) (num 5362098306337997 17592186044416)) &&
    (ok (r.changes.getItem 1) fun v21 => ok (v21.core.clouds.getItem 0) fun v29 => same (.ofFloat (inKilometers v29.height)) (num 5490788665690109 18014398509481984)) &&
    (ok (r.changes.getItem 1) fun v21 => ok (v21.core.clouds.getItem 0) fun v30 => same (.ofFloat (inSeaMiles v30.height)) (num 5929577392753897 36028797018963968)) &&
    (ok (r.changes.getItem 1) fun v21 => ok (v21.core.clouds.getItem 0) fun v31 => same (.ofStr v31.type) (.none)) &&
    (ok (r.changes.getItem 1) fun v21 => raises (v21.core.clouds.getItem 1) .index)) = true := by decide +kernel

end Verif.Tests
