import Verif.Tests.Database

/-
The assertions of tests/taf/test_changes_visibility.py, checked of the model. Generated by tools/tests2lean.py.
-/

namespace Verif.Tests

/-! `test_changes_visibility_from_sea_miles` (tests/taf/test_changes_visibility.py 6-83) -/

example : ok (Taf.new testDb testClock
    py!"\n    TAF KATL 282202Z 2822/0124 04006KT P6SM SKC\n        FM010100 00000KT P6SM SKC\n        TEMPO 0106/0112 33003KT 1 1/4SM BKN020\n        BECMG 0117/0119 29005KT 1/2SM SN BKN010\n    "
    ⟨none, none, false⟩) (fun r =>
    (ok (r.changes.getItem 0) fun v1 => same (.ofStr v1.core.prevailing.code) (.str py!"P6SM")) &&
    (ok (r.changes.getItem 0) fun v1 => same (.ofFloat v1.core.prevailing.vis) (num 11112 1)) &&
    (ok (r.changes.getItem 0) fun v1 => same (.ofFloat (inKilometers v1.core.prevailing.vis)) (num 6255499882417619 562949953421312)) &&
    (ok (r.changes.getItem 0) fun v1 => approx (.ofFloat (inSeaMiles v1.core.prevailing.vis)) (mkRat (6) 1) (mkRat (4722366482869645) 4722366482869645213696)) &&
    (ok (r.changes.getItem 0) fun v1 => approx (.ofFloat (inFeet v1.core.prevailing.vis)) (mkRat (2505285347521331) 68719476736) (mkRat (4722366482869645) 4722366482869645213696)) &&
    (ok (r.changes.getItem 0) fun v1 => same (.bool v1.core.prevailing.cavok) (.bool false)) &&
    (ok (r.changes.getItem 0) fun v1 => same (.ofStr (v1.core.prevailing.direction.cardinal)) (.none)) &&
    (ok (r.changes.getItem 0) fun v1 => same (.ofFloat v1.core.prevailing.direction.value) (.none)) &&
    (ok (r.changes.getItem 0) fun v1 => same (.ofFloat (v1.core.prevailing.direction.inRadians)) (.none)) &&
    (ok (r.changes.getItem 0) fun v1 => same (.str v1.core.prevailing.str) (.str py!"11.1 km")) &&
    (ok (r.changes.getItem 0) fun v1 => same v1.core.prevailing.dictPrev (.dict [(py!"cavok", .bool false), (py!"code", .str py!"P6SM"), (py!"direction", .dict [(py!"cardinal", .none), (py!"direction", .none), (py!"units", .str py!"degrees"), (py!"variable", .bool false)]), (py!"visibility", .dict [(py!"distance", num 11112 1), (py!"units", .str py!"meters")])])) &&
    (ok (r.changes.getItem 1) fun v2 => same (.ofStr v2.core.prevailing.code) (.str py!"1 1/4SM")) &&
    (ok (r.changes.getItem 1) fun v2 => same (.ofFloat v2.core.prevailing.vis) (num 2315 1)) &&
    (ok (r.changes.getItem 1) fun v2 => same (.ofFloat (inKilometers v2.core.prevailing.vis)) (num 5212916568681349 2251799813685248)) &&
    (ok (r.changes.getItem 1) fun v2 => approx (.ofFloat (inSeaMiles v2.core.prevailing.vis)) (mkRat (5) 4) (mkRat (4722366482869645) 4722366482869645213696)) &&
    (ok (r.changes.getItem 1) fun v2 => same (.ofFloat (inFeet v2.core.prevailing.vis)) (num 4175474767554855 549755813888)) &&
    (ok (r.changes.getItem 1) fun v2 => same (.bool v2.core.prevailing.cavok) (.bool false)) &&
    (ok (r.changes.getItem 1) fun v2 => same (.ofStr (v2.core.prevailing.direction.cardinal)) (.none)) &&
    (ok (r.changes.getItem 1) fun v2 => same (.ofFloat v2.core.prevailing.direction.value) (.none)) &&
    (ok (r.changes.getItem 1) fun v2 => same (.ofFloat (v2.core.prevailing.direction.inRadians)) (.none)) &&
    (ok (r.changes.getItem 1) fun v2 => same (.str v2.core.prevailing.str) (.str py!"2.3 km")) &&
    (ok (r.changes.getItem 1) fun v2 => same v2.core.prevailing.dictPrev (.dict [(py!"cavok", .bool false), (py!"code", .str py!"1 1/4SM"), (py!"direction", .dict [(py!"cardinal", .none), (py!"direction", .none), (py!"units", .str py!"degrees"), (py!"variable", .bool false)]), (py!"visibility", .dict [(py!"distance", num 2315 1), (py!"units", .str py!"meters")])])) &&
    (ok (r.changes.getItem 2) fun v3 => same (.ofStr v3.core.prevailing.code) (.str py!"1/2SM")) &&
    (ok (r.changes.getItem 2) fun v3 => same (.ofFloat v3.core.prevailing.vis) (num 926 1)) &&
    (ok (r.changes.getItem 2) fun v3 => same (.ofFloat (inKilometers v3.core.prevailing.vis)) (num 8340666509890159 9007199254740992)) &&
    (ok (r.changes.getItem 2) fun v3 => approx (.ofFloat (inSeaMiles v3.core.prevailing.vis)) (mkRat (1) 2) (mkRat (4722366482869645) 4722366482869645213696)) &&
    (ok (r.changes.getItem 2) fun v3 => same (.ofFloat (inFeet v3.core.prevailing.vis)) (num 835094953510971 274877906944)) &&
    (ok (r.changes.getItem 2) fun v3 => same (.bool v3.core.prevailing.cavok) (.bool false)) &&
    (ok (r.changes.getItem 2) fun v3 => same (.ofStr (v3.core.prevailing.direction.cardinal)) (.none)) &&
    (ok (r.changes.getItem 2) fun v3 => same (.ofFloat v3.core.prevailing.direction.value) (.none)) &&
    (ok (r.changes.getItem 2) fun v3 => same (.ofFloat (v3.core.prevailing.direction.inRadians)) (.none)) &&
    (ok (r.changes.getItem 2) fun v3 => same (.str v3.core.prevailing.str) (.str py!"0.9 km")) &&
    (ok (r.changes.getItem 2) fun v3 => same v3.core.prevailing.dictPrev (.dict [(py!"cavok", .bool false), (py!"code", .str py!"1/2SM"), (py!"direction", .dict [(py!"cardinal", .none), (py!"direction", .none), (py!"units", .str py!"degrees"), (py!"variable", .bool false)]), (py!"visibility", .dict [(py!"distance", num 926 1), (py!"units", .str py!"meters")])]))) = true := by decide +kernel

end Verif.Tests
