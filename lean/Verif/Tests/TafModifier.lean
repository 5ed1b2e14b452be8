import Verif.Tests.Database

/-
The assertions of tests/taf/test_modifier.py, checked of the model. Generated by tools/tests2lean.py.
-/

namespace Verif.Tests

/-! `test_AMD_modifier` (tests/taf/test_modifier.py 4-17) -/

example : ok (Taf.new testDb testClock
    py!"\n    TAF AMD MGPB 231700Z 2318/2418 07008KT 9999 SCT018 TX30/2320Z TN21/2412Z\n        PROB40\n        TEMPO 2322/2412 8000 VCSH BKN016\n        BECMG 2400/2402 00000KT SCT016\n        BECMG 2416/2418 06008KT SCT018\n    "
    ⟨none, none, false⟩) (fun r =>
    (same (.ofStr r.modifier.code) (.str py!"AMD")) &&
    (same (.ofStr r.modifier.description) (.str py!"Amendment")) &&
    (same (.str r.modifier.str) (.str py!"amendment")) &&
    (same (PyVal.dict r.modifier.dict) (.dict [(py!"code", .str py!"AMD"), (py!"modifier", .str py!"Amendment")]))) = true := by decide +kernel

/-! `test_COR_modifier` (tests/taf/test_modifier.py 20-33) -/

example : ok (Taf.new testDb testClock
    py!"\n    TAF COR SKBO 231630Z 2318/2418 28010KT 9999 SCT023\n        TEMPO 2319/2323 5000 TSRA SCT018CB\n        BECMG 2400/2402 VRB02KT\n        PROB40\n        TEMPO 2410/2412 5000 BCFG SCT010 TX21/2318Z TN09/2410Z\n    "
    ⟨none, none, false⟩) (fun r =>
    (same (.ofStr r.modifier.code) (.str py!"COR")) &&
    (same (.ofStr r.modifier.description) (.str py!"Correction")) &&
    (same (.str r.modifier.str) (.str py!"correction")) &&
    (same (PyVal.dict r.modifier.dict) (.dict [(py!"code", .str py!"COR"), (py!"modifier", .str py!"Correction")]))) = true := by decide +kernel

/-! `test_no_modifier` (tests/taf/test_modifier.py 36-47) -/

example : ok (Taf.new testDb testClock
    py!"\n    TAF SKCG 231630Z 2318/2418 35015KT 9999 FEW020\n        TX33/2319Z TN23/2410Z\n        BECMG 2402/2404 VRB02KT\n    "
    ⟨none, none, false⟩) (fun r =>
    (same (.ofStr r.modifier.code) (.none)) &&
    (same (.ofStr r.modifier.description) (.none)) &&
    (same (.str r.modifier.str) (.str [])) &&
    (same (PyVal.dict r.modifier.dict) (.dict [(py!"code", .none), (py!"modifier", .none)]))) = true := by decide +kernel

end Verif.Tests
