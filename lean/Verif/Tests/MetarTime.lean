import Verif.Tests.Database

/-
The assertions of tests/metar/test_time.py, checked of the model. Generated by tools/tests2lean.py.
-/

namespace Verif.Tests

/-! `test_code` (tests/metar/test_time.py 4-19) -/

example : ok (Metar.new testDb testClock
    py!"SPECI UUDD 212130Z COR 35003MPS 320V020 CAVOK 18/12 Q1008 R88/60D NOSIG"
    ⟨some 2021, some 7, false⟩) (fun r =>
    (same (.ofStr r.time.code) (.str py!"212130Z")) &&
    (same (nats r.time.time.year) (num 2021 1)) &&
    (same (nats r.time.time.month) (num 7 1)) &&
    (same (nats r.time.time.day) (num 21 1)) &&
    (same (nats r.time.time.hour) (num 21 1)) &&
    (same (nats r.time.time.minute) (num 30 1)) &&
    (same (.str r.time.str) (.str py!"2021-07-21 21:30:00")) &&
    (same (PyVal.dict r.time.dict) (.dict [(py!"code", .str py!"212130Z"), (py!"datetime", .str py!"2021-07-21 21:30:00")]))) = true := by decide +kernel

/-! `test_no_code` (tests/metar/test_time.py 22-38) -/

example : ok (Metar.new testDb testClock
    py!"METAR UUDD NIL"
    ⟨some 2021, some 7, false⟩) (fun r =>
    (same (.ofStr r.time.code) (.none)) &&
    (same (nats r.time.time.year) (num 2021 1)) &&
    (same (nats r.time.time.month) (num 7 1)) &&
    (same (nats r.time.time.day) (num 1 1)) &&
    (same (nats r.time.time.hour) (num 0 1)) &&
    (same (nats r.time.time.minute) (num 0 1)) &&
    (same (.str r.time.str) (.str py!"2021-07-01 00:00:00")) &&
    (same (PyVal.dict r.time.dict) (.dict [(py!"code", .none), (py!"datetime", .str py!"2021-07-01 00:00:00")]))) = true := by decide +kernel

end Verif.Tests
