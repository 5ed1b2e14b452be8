import Verif.Tests.Database

/-
The assertions of tests/taf/test_visibility.py, checked of the model. Generated by tools/tests2lean.py.
-/

namespace Verif.Tests

/-! `test_visibility_from_sea_miles` (tests/taf/test_visibility.py 6-36) -/

example : ok (Taf.new testDb testClock
    py!"\n    KATL 282202Z 2822/0124 04006KT P6SM SKC\n        FM010100 00000KT P6SM SKC\n        FM010800 33003KT P6SM BKN250\n        FM011700 29005KT P6SM SKC\n    "
    ⟨none, none, false⟩) (fun r =>
    (same (.ofStr r.core.prevailing.code) (.str py!"P6SM")) &&
    (same (.ofFloat r.core.prevailing.vis) (num 11112 1)) &&
    (same (.ofFloat (inKilometers r.core.prevailing.vis)) (num 6255499882417619 562949953421312)) &&
    (approx (.ofFloat (inSeaMiles r.core.prevailing.vis)) (mkRat (6) 1) (mkRat (4722366482869645) 4722366482869645213696)) &&
    (approx (.ofFloat (inFeet r.core.prevailing.vis)) (mkRat (2505285347521331) 68719476736) (mkRat (4722366482869645) 4722366482869645213696)) &&
    (same (.bool r.core.prevailing.cavok) (.bool false)) &&
    (same (.ofStr (r.core.prevailing.direction.cardinal)) (.none)) &&
    (same (.ofFloat r.core.prevailing.direction.value) (.none)) &&
    (same (.ofFloat (r.core.prevailing.direction.inRadians)) (.none)) &&
    (same (.str r.core.prevailing.str) (.str py!"11.1 km")) &&
    (same r.core.prevailing.dictPrev (.dict [(py!"cavok", .bool false), (py!"code", .str py!"P6SM"), (py!"direction", .dict [(py!"cardinal", .none), (py!"direction", .none), (py!"units", .str py!"degrees"), (py!"variable", .bool false)]), (py!"visibility", .dict [(py!"distance", num 11112 1), (py!"units", .str py!"meters")])]))) = true := by decide +kernel

end Verif.Tests
