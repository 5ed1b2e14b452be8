import Verif.Tests.Database

/-
The assertions of tests/taf/test_main_valid_period.py, checked of the model. Generated by tools/tests2lean.py.
-/

namespace Verif.Tests

/-! `test_0606_valid_period` (tests/taf/test_main_valid_period.py 7-36) -/

example : ok (Taf.new testDb testClock
    py!"\n    TAF KATL 250357Z 2506/2606 21006KT P6SM FEW045\n        FM251000 23008KT P6SM BKN020\n        FM251300 27009KT P6SM VCSH SCT010 BKN015\n        FM251800 31011G18KT P6SM BKN025\n        FM252100 31012G18KT P6SM FEW035 FEW150\n        FM260000 32009KT P6SM FEW060\n    "
    ⟨some 2019, some 3, false⟩) (fun r =>
    (same (.ofStr r.valid.code) (.str py!"2506/2606")) &&
    (decide (((((r.valid.duration * 60 : Int) : Rat) / 60) / 60) = (mkRat (24) 1))) &&
    (same (.str r.valid.str) (.str py!"from 2019-03-25 06:00:00 until 2019-03-26 06:00:00")) &&
    (same (nats r.valid.from_.time.year) (num 2019 1)) &&
    (same (nats r.valid.from_.time.month) (num 3 1)) &&
    (same (nats r.valid.from_.time.day) (num 25 1)) &&
    (same (nats r.valid.from_.time.hour) (num 6 1)) &&
    (same (nats r.valid.from_.time.minute) (num 0 1)) &&
    (same (nats r.valid.until_.time.year) (num 2019 1)) &&
    (same (nats r.valid.until_.time.month) (num 3 1)) &&
    (same (nats r.valid.until_.time.day) (num 26 1)) &&
    (same (nats r.valid.until_.time.hour) (num 6 1)) &&
    (same (nats r.valid.until_.time.minute) (num 0 1)) &&
    (same r.valid.dict (.dict [(py!"code", .str py!"2506/2606"), (py!"from_", .dict [(py!"code", .none), (py!"datetime", .str py!"2019-03-25 06:00:00")]), (py!"until", .dict [(py!"code", .none), (py!"datetime", .str py!"2019-03-26 06:00:00")])]))) = true := by decide +kernel

/-! `test_0024_valid_period` (tests/taf/test_main_valid_period.py 39-64) -/

example : ok (Taf.new testDb testClock
    py!"\n    TAF MROC 302300Z 3100/3124 09015KT CAVOK TX29/2519Z TN19/2511Z\n        TEMPO 3112/3120 08015G28KT\n    "
    ⟨some 2019, some 3, false⟩) (fun r =>
    (same (.ofStr r.valid.code) (.str py!"3100/3124")) &&
    (decide (((((r.valid.duration * 60 : Int) : Rat) / 60) / 60) = (mkRat (24) 1))) &&
    (same (.str r.valid.str) (.str py!"from 2019-03-31 00:00:00 until 2019-04-01 00:00:00")) &&
    (same (nats r.valid.from_.time.year) (num 2019 1)) &&
    (same (nats r.valid.from_.time.month) (num 3 1)) &&
    (same (nats r.valid.from_.time.day) (num 31 1)) &&
    (same (nats r.valid.from_.time.hour) (num 0 1)) &&
    (same (nats r.valid.from_.time.minute) (num 0 1)) &&
    (same (nats r.valid.until_.time.year) (num 2019 1)) &&
    (same (nats r.valid.until_.time.month) (num 4 1)) &&
    (same (nats r.valid.until_.time.day) (num 1 1)) &&
    (same (nats r.valid.until_.time.hour) (num 0 1)) &&
    (same (nats r.valid.until_.time.minute) (num 0 1)) &&
    (same r.valid.dict (.dict [(py!"code", .str py!"3100/3124"), (py!"from_", .dict [(py!"code", .none), (py!"datetime", .str py!"2019-03-31 00:00:00")]), (py!"until", .dict [(py!"code", .none), (py!"datetime", .str py!"2019-04-01 00:00:00")])]))) = true := by decide +kernel

/-! `test_0306_valid_period` (tests/taf/test_main_valid_period.py 67-97) -/

example : ok (Taf.new testDb testClock
    py!"\n    KBWI 250258Z 2503/2606 08006KT 2SM -RA BR OVC008\n        TEMPO 2503/2507 2SM -FZRA BKN005\n        FM250700 10005KT 2SM RA BR OVC008\n        FM250900 00000KT 1SM -RA BR OVC005\n        FM251300 00000KT 3SM -RA BR OVC015\n        FM251600 27013G25KT 6SM BR FEW015 SCT250\n        FM252200 31016G25KT P6SM FEW250\n    "
    ⟨some 2019, some 3, false⟩) (fun r =>
    (same (.ofStr r.valid.code) (.str py!"2503/2606")) &&
    (decide (((((r.valid.duration * 60 : Int) : Rat) / 60) / 60) = (mkRat (27) 1))) &&
    (same (.str r.valid.str) (.str py!"from 2019-03-25 03:00:00 until 2019-03-26 06:00:00")) &&
    (same (nats r.valid.from_.time.year) (num 2019 1)) &&
    (same (nats r.valid.from_.time.month) (num 3 1)) &&
    (same (nats r.valid.from_.time.day) (num 25 1)) &&
    (same (nats r.valid.from_.time.hour) (num 3 1)) &&
    (same (nats r.valid.from_.time.minute) (num 0 1)) &&
    (same (nats r.valid.until_.time.year) (num 2019 1)) &&
    (same (nats r.valid.until_.time.month) (num 3 1)) &&
    (same (nats r.valid.until_.time.day) (num 26 1)) &&
    (same (nats r.valid.until_.time.hour) (num 6 1)) &&
    (same (nats r.valid.until_.time.minute) (num 0 1)) &&
    (same r.valid.dict (.dict [(py!"code", .str py!"2503/2606"), (py!"from_", .dict [(py!"code", .none), (py!"datetime", .str py!"2019-03-25 03:00:00")]), (py!"until", .dict [(py!"code", .none), (py!"datetime", .str py!"2019-03-26 06:00:00")])]))) = true := by decide +kernel

/-! `test_1806_valid_period` (tests/taf/test_main_valid_period.py 100-125) -/

example : ok (Taf.new testDb testClock
    py!"\n    KSEA 021730Z 0218/0306 VRB03KT P6SM SKC\n        FM022000 35006KT P6SM SKC\n    "
    ⟨some 2019, some 3, false⟩) (fun r =>
    (same (.ofStr r.valid.code) (.str py!"0218/0306")) &&
    (decide (((((r.valid.duration * 60 : Int) : Rat) / 60) / 60) = (mkRat (12) 1))) &&
    (same (.str r.valid.str) (.str py!"from 2019-03-02 18:00:00 until 2019-03-03 06:00:00")) &&
    (same (nats r.valid.from_.time.year) (num 2019 1)) &&
    (same (nats r.valid.from_.time.month) (num 3 1)) &&
    (same (nats r.valid.from_.time.day) (num 2 1)) &&
    (same (nats r.valid.from_.time.hour) (num 18 1)) &&
    (same (nats r.valid.from_.time.minute) (num 0 1)) &&
    (same (nats r.valid.until_.time.year) (num 2019 1)) &&
    (same (nats r.valid.until_.time.month) (num 3 1)) &&
    (same (nats r.valid.until_.time.day) (num 3 1)) &&
    (same (nats r.valid.until_.time.hour) (num 6 1)) &&
    (same (nats r.valid.until_.time.minute) (num 0 1)) &&
    (same r.valid.dict (.dict [(py!"code", .str py!"0218/0306"), (py!"from_", .dict [(py!"code", .none), (py!"datetime", .str py!"2019-03-02 18:00:00")]), (py!"until", .dict [(py!"code", .none), (py!"datetime", .str py!"2019-03-03 06:00:00")])]))) = true := by decide +kernel

/-! `test_0012_valid_period` (tests/taf/test_main_valid_period.py 128-153) -/

example : ok (Taf.new testDb testClock
    py!"\n    KFLL 052312Z 0600/0612 10009KT P6SM FEW025\n        FM060800 10011KT P6SM FEW025 SCT050\n    "
    ⟨some 2019, some 3, false⟩) (fun r =>
    (same (.ofStr r.valid.code) (.str py!"0600/0612")) &&
    (decide (((((r.valid.duration * 60 : Int) : Rat) / 60) / 60) = (mkRat (12) 1))) &&
    (same (.str r.valid.str) (.str py!"from 2019-03-06 00:00:00 until 2019-03-06 12:00:00")) &&
    (same (nats r.valid.from_.time.year) (num 2019 1)) &&
    (same (nats r.valid.from_.time.month) (num 3 1)) &&
    (same (nats r.valid.from_.time.day) (num 6 1)) &&
    (same (nats r.valid.from_.time.hour) (num 0 1)) &&
    (same (nats r.valid.from_.time.minute) (num 0 1)) &&
    (same (nats r.valid.until_.time.year) (num 2019 1)) &&
    (same (nats r.valid.until_.time.month) (num 3 1)) &&
    (same (nats r.valid.until_.time.day) (num 6 1)) &&
    (same (nats r.valid.until_.time.hour) (num 12 1)) &&
    (same (nats r.valid.until_.time.minute) (num 0 1)) &&
    (same r.valid.dict (.dict [(py!"code", .str py!"0600/0612"), (py!"from_", .dict [(py!"code", .none), (py!"datetime", .str py!"2019-03-06 00:00:00")]), (py!"until", .dict [(py!"code", .none), (py!"datetime", .str py!"2019-03-06 12:00:00")])]))) = true := by decide +kernel

/-! `test_0024_with_year_change_valid_period` (tests/taf/test_main_valid_period.py 156-182) -/

example : ok (Taf.new testDb testClock
    py!"\n    TAF FKKD 302300Z 3100/3124 VRB05KT 8000 BKN013 FEW016CB\n        TEMPO 3105/3107 2000 BR\n        BECMG 3106/3108 BKN016 FEW020CB\n    "
    ⟨some 2019, some 12, false⟩) (fun r =>
    (same (.ofStr r.valid.code) (.str py!"3100/3124")) &&
    (decide (((((r.valid.duration * 60 : Int) : Rat) / 60) / 60) = (mkRat (24) 1))) &&
    (same (.str r.valid.str) (.str py!"from 2019-12-31 00:00:00 until 2020-01-01 00:00:00")) &&
    (same (nats r.valid.from_.time.year) (num 2019 1)) &&
    (same (nats r.valid.from_.time.month) (num 12 1)) &&
    (same (nats r.valid.from_.time.day) (num 31 1)) &&
    (same (nats r.valid.from_.time.hour) (num 0 1)) &&
    (same (nats r.valid.from_.time.minute) (num 0 1)) &&
    (same (nats r.valid.until_.time.year) (num 2020 1)) &&
    (same (nats r.valid.until_.time.month) (num 1 1)) &&
    (same (nats r.valid.until_.time.day) (num 1 1)) &&
    (same (nats r.valid.until_.time.hour) (num 0 1)) &&
    (same (nats r.valid.until_.time.minute) (num 0 1)) &&
    (same r.valid.dict (.dict [(py!"code", .str py!"3100/3124"), (py!"from_", .dict [(py!"code", .none), (py!"datetime", .str py!"2019-12-31 00:00:00")]), (py!"until", .dict [(py!"code", .none), (py!"datetime", .str py!"2020-01-01 00:00:00")])]))) = true := by decide +kernel

end Verif.Tests
