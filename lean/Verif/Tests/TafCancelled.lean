import Verif.Tests.Database

/-
The assertions of tests/taf/test_cancelled.py, checked of the model. Generated by tools/tests2lean.py.
-/

namespace Verif.Tests

/-! `test_cancelled_taf` (tests/taf/test_cancelled.py 4-11) -/

example : ok (Taf.new testDb testClock
    py!"TAF FKKD 271700Z 2718/2824 CNL"
    ⟨none, none, false⟩) (fun r =>
    (same (.ofStr r.cancelled.code) (.str py!"CNL")) &&
    (same (.bool r.cancelled.isCancelled) (.bool true)) &&
    (same (.str r.cancelled.str) (.str py!"cancelled")) &&
    (same r.cancelled.dict (.dict [(py!"code", .str py!"CNL"), (py!"is_cancelled", .bool true)]))) = true := by decide +kernel

/-! `test_no_cancelled_taf` (tests/taf/test_cancelled.py 14-26) -/

example : ok (Taf.new testDb testClock
    py!"\n    TAF FKKD 271700Z 2718/2824 VRB03KT 9999 SCT016 FEW020CB\n        PROB30 2718/2720 TS\n        TEMPO 2722/2807 BKN013 FEW016CB\n        TEMPO 2805/2807 2000 BR\n    "
    ⟨none, none, false⟩) (fun r =>
    (same (.ofStr r.cancelled.code) (.none)) &&
    (same (.bool r.cancelled.isCancelled) (.bool false)) &&
    (same (.str r.cancelled.str) (.str [])) &&
    (same r.cancelled.dict (.dict [(py!"code", .none), (py!"is_cancelled", .bool false)]))) = true := by decide +kernel

end Verif.Tests
