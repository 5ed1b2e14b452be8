import Verif.Tests.Database

/-
The assertions of tests/taf/test_nil.py, checked of the model. Generated by tools/tests2lean.py.
-/

namespace Verif.Tests

/-! `test_nil_taf` (tests/taf/test_nil.py 4-17) -/

example : ok (Taf.new testDb testClock
    py!"TAF LFBE 231700Z NIL"
    ⟨none, none, false⟩) (fun r =>
    (same (.ofStr r.missing.mod.code) (.str py!"NIL")) &&
    (same (.bool r.missing.isMissing) (.bool true)) &&
    (same (.ofStr r.missing.mod.description) (.str py!"Missing report")) &&
    (same (.str r.missing.mod.str) (.str py!"missing report")) &&
    (same r.missing.dict (.dict [(py!"code", .str py!"NIL"), (py!"is_missing", .bool true), (py!"modifier", .str py!"Missing report")]))) = true := by decide +kernel

/-! `test_no_nil_taf` (tests/taf/test_nil.py 20-36) -/

example : ok (Taf.new testDb testClock
    py!"\n    TAF LFBE 231700Z 2318/2418 VRB03KT CAVOK\n        PROB40\n        TEMPO 2402/2407 3000 BR NSC\n        BECMG 2412/2414 BKN020\n        PROB30\n        TEMPO 2414/2416 4000 -SHRA BKN020TCU\n    "
    ⟨none, none, false⟩) (fun r =>
    (same (.ofStr r.missing.mod.code) (.none)) &&
    (same (.bool r.missing.isMissing) (.bool false)) &&
    (same (.ofStr r.missing.mod.description) (.none)) &&
    (same (.str r.missing.mod.str) (.str [])) &&
    (same r.missing.dict (.dict [(py!"code", .none), (py!"is_missing", .bool false), (py!"modifier", .none)]))) = true := by decide +kernel

end Verif.Tests
