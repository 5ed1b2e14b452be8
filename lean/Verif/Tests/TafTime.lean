import Verif.Tests.Database

/-
The assertions of tests/taf/test_time.py, checked of the model. Generated by tools/tests2lean.py.
-/

namespace Verif.Tests

/-! `test_code` (tests/taf/test_time.py 4-21) -/

example : ok (Taf.new testDb testClock
    py!"\n    TAF GCTS 232000Z 2321/2421 33005KT 9999 FEW030 TX22/2414Z TN14/2406Z\n        TEMPO 2321/2324 03010KT\n        BECMG 2411/2413 20010KT\n        BECMG 2416/2417 10007KT\n    "
    ⟨some 2022, some 1, false⟩) (fun r =>
    (same (.ofStr r.time.code) (.str py!"232000Z")) &&
    (same (nats r.time.time.year) (num 2022 1)) &&
    (same (nats r.time.time.month) (num 1 1)) &&
    (same (nats r.time.time.day) (num 23 1)) &&
    (same (nats r.time.time.hour) (num 20 1)) &&
    (same (nats r.time.time.minute) (num 0 1)) &&
    (same (.str r.time.str) (.str py!"2022-01-23 20:00:00")) &&
    (same (PyVal.dict r.time.dict) (.dict [(py!"code", .str py!"232000Z"), (py!"datetime", .str py!"2022-01-23 20:00:00")]))) = true := by decide +kernel

end Verif.Tests
