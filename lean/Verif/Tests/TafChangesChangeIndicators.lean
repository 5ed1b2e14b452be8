import Verif.Tests.Database

/-
The assertions of tests/taf/test_changes_change_indicators.py, checked of the model. Generated by tools/tests2lean.py.
-/

namespace Verif.Tests

/-! `test_three_changes` (tests/taf/test_changes_change_indicators.py 7-52) -/

example : ok (Taf.new testDb testClock
    py!"\n    TAF UNOO 061700Z 0618/0718 22007G13MPS 6000 -SHSN BKN010 BKN025CB\n        TEMPO 0618/0706 1000 SHSN BLSN VV004\n        BECMG 0700/0702 26006G12MPS\n        BECMG 0708/0710 27007G13MPS\n    "
    ⟨some 2022, some 3, false⟩) (fun r =>
    (same (nats r.changes.list.length) (num 3 1)) &&
    (same (strs (r.changes.list.map (·.code))) (.list [.str py!"TEMPO 0618/0706 1000 SHSN BLSN VV004", .str py!"BECMG 0700/0702 26006G12MPS", .str py!"BECMG 0708/0710 27007G13MPS"])) &&
    (ok (r.changes.getItem 0) fun v1 => same (.str v1.code) (.str py!"TEMPO 0618/0706 1000 SHSN BLSN VV004")) &&
    (ok (r.changes.getItem 0) fun v1 => same (.ofStr v1.indicator.code) (.str py!"TEMPO 0618/0706")) &&
    (ok (r.changes.getItem 0) fun v1 => same (.ofStr v1.indicator.translation) (.str py!"temporary from 2022-03-06 18:00:00 until 2022-03-07 06:00:00")) &&
    (ok (r.changes.getItem 1) fun v2 => same (.str v2.code) (.str py!"BECMG 0700/0702 26006G12MPS")) &&
    (ok (r.changes.getItem 1) fun v2 => same (.ofStr v2.indicator.code) (.str py!"BECMG 0700/0702")) &&
    (ok (r.changes.getItem 1) fun v2 => same (.ofStr v2.indicator.translation) (.str py!"becoming from 2022-03-07 00:00:00 until 2022-03-07 02:00:00")) &&
    (ok (r.changes.getItem 2) fun v3 => same (.str v3.code) (.str py!"BECMG 0708/0710 27007G13MPS")) &&
    (ok (r.changes.getItem 2) fun v3 => same (.ofStr v3.indicator.code) (.str py!"BECMG 0708/0710")) &&
    (ok (r.changes.getItem 2) fun v3 => same (.ofStr v3.indicator.translation) (.str py!"becoming from 2022-03-07 08:00:00 until 2022-03-07 10:00:00")) &&
    (raises (r.changes.getItem 3) .index) &&
    (raises (r.changes.getItem 8) .range)) = true := by decide +kernel

/-! `test_six_changes` (tests/taf/test_changes_change_indicators.py 55-130) -/

example : ok (Taf.new testDb testClock
    py!"\n    TAF KATL 062027Z 0620/0724 21010G20KT P6SM BKN050\n        FM070000 17005KT P6SM FEW250\n        FM070500 20010KT P6SM SCT050\n        FM071700 22015G25KT P6SM BKN030\n        PROB30 0717/0721 4SM -SHRA BR OVC015\n        FM072200 24015G25KT 6SM -SHRA BR BKN035\n        PROB30 TEMPO 0722/0724 4SM TSRA BR OVC025CB\n    "
    ⟨some 2018, some 10, false⟩) (fun r =>
    (same (nats r.changes.list.length) (num 6 1)) &&
    (same (strs (r.changes.list.map (·.code))) (.list [.str py!"FM070000 17005KT P6SM FEW250", .str py!"FM070500 20010KT P6SM SCT050", .str py!"FM071700 22015G25KT P6SM BKN030", .str py!"PROB30 0717/0721 4SM -SHRA BR OVC015", .str py!"FM072200 24015G25KT 6SM -SHRA BR BKN035", .str py!"PROB30 TEMPO 0722/0724 4SM TSRA BR OVC025CB"])) &&
    (ok (r.changes.getItem 0) fun v1 => same (.str v1.code) (.str py!"FM070000 17005KT P6SM FEW250")) &&
    (ok (r.changes.getItem 0) fun v1 => same (.ofStr v1.indicator.code) (.str py!"FM070000")) &&
    (ok (r.changes.getItem 0) fun v1 => same (.ofStr v1.indicator.translation) (.str py!"from 2018-10-07 00:00:00 until 2018-10-07 04:00:00")) &&
    (ok (r.changes.getItem 1) fun v2 => same (.str v2.code) (.str py!"FM070500 20010KT P6SM SCT050")) &&
    (ok (r.changes.getItem 1) fun v2 => same (.ofStr v2.indicator.code) (.str py!"FM070500")) &&
    (ok (r.changes.getItem 1) fun v2 => same (.ofStr v2.indicator.translation) (.str py!"from 2018-10-07 05:00:00 until 2018-10-07 16:00:00")) &&
    (ok (r.changes.getItem 2) fun v3 => same (.str v3.code) (.str py!"FM071700 22015G25KT P6SM BKN030")) &&
    (ok (r.changes.getItem 2) fun v3 => same (.ofStr v3.indicator.code) (.str py!"FM071700")) &&
    (ok (r.changes.getItem 2) fun v3 => same (.ofStr v3.indicator.translation) (.str py!"from 2018-10-07 17:00:00 until 2018-10-07 21:00:00")) &&
    (ok (r.changes.getItem 3) fun v4 => same (.str v4.code) (.str py!"PROB30 0717/0721 4SM -SHRA BR OVC015")) &&
    (ok (r.changes.getItem 3) fun v4 => same (.ofStr v4.indicator.code) (.str py!"PROB30 0717/0721")) &&
    (ok (r.changes.getItem 3) fun v4 => same (.ofStr v4.indicator.translation) (.str py!"probability 30% from 2018-10-07 17:00:00 until 2018-10-07 21:00:00")) &&
    (ok (r.changes.getItem 4) fun v5 => same (.str v5.code) (.str py!"FM072200 24015G25KT 6SM -SHRA BR BKN035")) &&
    (ok (r.changes.getItem 4) fun v5 => same (.ofStr v5.indicator.code) (.str py!"FM072200")) &&
    (ok (r.changes.getItem 4) fun v5 => same (.ofStr v5.indicator.translation) (.str py!"from 2018-10-07 22:00:00 until 2018-10-08 00:00:00")) &&
    (ok (r.changes.getItem 5) fun v6 => same (.str v6.code) (.str py!"PROB30 TEMPO 0722/0724 4SM TSRA BR OVC025CB")) &&
    (ok (r.changes.getItem 5) fun v6 => same (.ofStr v6.indicator.code) (.str py!"PROB30 TEMPO 0722/0724")) &&
    (ok (r.changes.getItem 5) fun v6 => same (.ofStr v6.indicator.translation) (.str py!"probability 30% temporary from 2018-10-07 22:00:00 until 2018-10-08 00:00:00")) &&
    (raises (r.changes.getItem 6) .index) &&
    (raises (r.changes.getItem 8) .range)) = true := by decide +kernel

/-! `test_no_changes` (tests/taf/test_changes_change_indicators.py 133-145) -/

example : ok (Taf.new testDb testClock
    py!"TAF KPHX 062100Z 0621/0724 27007KT P6SM FEW070"
    ⟨none, none, false⟩) (fun r =>
    (same (nats r.changes.list.length) (num 0 1)) &&
    (same (strs (r.changes.list.map (·.code))) (.list [])) &&
    (raises (r.changes.getItem 0) .index) &&
    (raises (r.changes.getItem 8) .range)) = true := by decide +kernel

end Verif.Tests
