import Verif.Tests.Database

/-
The assertions of tests/metar/test_windshear.py, checked of the model. Generated by tools/tests2lean.py.
-/

namespace Verif.Tests

/-! `test_one_windshear` (tests/metar/test_windshear.py 6-25) -/

example : ok (Metar.new testDb testClock
    py!"METAR MROC 202000Z 12013G23KT 9999 FEW040 SCT100 27/16 A2997 WS R07 NOSIG"
    ⟨none, none, false⟩) (fun r =>
    (same (ostrs (r.windshears.list.map (·.code))) (.list [.str py!"WS R07"])) &&
    (same (.str (windshearsStr r.windshears)) (.str py!"07")) &&
    (same (.bool (allRunways r.windshears.list)) (.bool false)) &&
    (ok (r.windshears.getItem 0) fun v1 => same (.ofStr v1.code) (.str py!"WS R07")) &&
    (ok (r.windshears.getItem 0) fun v2 => same (.ofStr v2.name) (.str py!"07")) &&
    (ok (r.windshears.getItem 0) fun v3 => same (.bool v3.all_) (.bool false)) &&
    (ok (r.windshears.getItem 0) fun v4 => same v4.dict (.dict [(py!"all", .bool false), (py!"code", .str py!"WS R07"), (py!"name", .str py!"07")])) &&
    (raises (r.windshears.getItem 1) .index)) = true := by decide +kernel

/-! `test_two_windshears` (tests/metar/test_windshear.py 28-56) -/

example : ok (Metar.new testDb testClock
    py!"METAR MROC 202000Z 12013G23KT 9999 FEW040 SCT100 27/16 A2997 WS R07L WS R25C NOSIG"
    ⟨none, none, false⟩) (fun r =>
    (same (ostrs (r.windshears.list.map (·.code))) (.list [.str py!"WS R07L", .str py!"WS R25C"])) &&
    (same (.str (windshearsStr r.windshears)) (.str py!"07 left | 25 center")) &&
    (same (.bool (allRunways r.windshears.list)) (.bool false)) &&
    (ok (r.windshears.getItem 0) fun v1 => same (.ofStr v1.code) (.str py!"WS R07L")) &&
    (ok (r.windshears.getItem 0) fun v2 => same (.ofStr v2.name) (.str py!"07 left")) &&
    (ok (r.windshears.getItem 0) fun v3 => same (.bool v3.all_) (.bool false)) &&
    (ok (r.windshears.getItem 0) fun v4 => same v4.dict (.dict [(py!"all", .bool false), (py!"code", .str py!"WS R07L"), (py!"name", .str py!"07 left")])) &&
    (ok (r.windshears.getItem 1) fun v5 => same (.ofStr v5.code) (.str py!"WS R25C")) &&
    (ok (r.windshears.getItem 1) fun v6 => same (.ofStr v6.name) (.str py!"25 center")) &&
    (ok (r.windshears.getItem 1) fun v7 => same (.bool v7.all_) (.bool false)) &&
    (ok (r.windshears.getItem 1) fun v8 => same v8.dict (.dict [(py!"all", .bool false), (py!"code", .str py!"WS R25C"), (py!"name", .str py!"25 center")])) &&
    (raises (r.windshears.getItem 2) .index)) = true := by decide +kernel

/-! `test_all_windshears` (tests/metar/test_windshear.py 59-74) -/

example : ok (Metar.new testDb testClock
    py!"METAR MROC 202000Z 12013G23KT 9999 FEW040 SCT100 27/16 A2997 WS ALL RWY NOSIG"
    ⟨none, none, false⟩) (fun r =>
    (same (ostrs (r.windshears.list.map (·.code))) (.list [.str py!"WS ALL RWY"])) &&
    (same (.str (windshearsStr r.windshears)) (.str py!"all runways")) &&
    (same (.bool (allRunways r.windshears.list)) (.bool true)) &&
    (ok (r.windshears.getItem 0) fun v1 => same (.ofStr v1.code) (.str py!"WS ALL RWY")) &&
    (ok (r.windshears.getItem 0) fun v2 => same (.ofStr v2.name) (.none)) &&
    (ok (r.windshears.getItem 0) fun v3 => same (.bool v3.all_) (.bool true)) &&
    (ok (r.windshears.getItem 0) fun v4 => same v4.dict (.dict [(py!"all", .bool true), (py!"code", .str py!"WS ALL RWY"), (py!"name", .none)])) &&
    (raises (r.windshears.getItem 1) .index)) = true := by decide +kernel

/-! `test_no_windshears` (tests/metar/test_windshear.py 77-90) -/

example : ok (Metar.new testDb testClock
    py!"LTAD 212106Z 25004KT 9999 SCT040 BKN100 16/14 Q1019 RESHRA NOSIG RMK RWY29 VRB02KT"
    ⟨none, none, false⟩) (fun r =>
    (same (ostrs (r.windshears.list.map (·.code))) (.list [])) &&
    (same (.str (windshearsStr r.windshears)) (.str [])) &&
    (same (.bool (allRunways r.windshears.list)) (.bool false)) &&
    (ok (r.windshears.asDict fun x => .ok (x.dict)) fun v1 => same v1 (.dict [])) &&
    (raises (r.windshears.getItem 0) .index) &&
    (raises (r.windshears.getItem 1) .index) &&
    (raises (r.windshears.getItem 2) .index)) = true := by decide +kernel

end Verif.Tests
