import Verif.Tests.Database

/-
The assertions of tests/metar/test_modifier.py, checked of the model. Generated by tools/tests2lean.py.
-/

namespace Verif.Tests

/-! `test_auto_modifier` (tests/metar/test_modifier.py 4-12) -/

example : ok (Metar.new testDb testClock
    py!"METAR KJST 060154Z AUTO 05007KT 10SM OVC085 13/01 A3004 RMK AO2 SLP174 T01280006"
    ⟨none, none, false⟩) (fun r =>
    (same (.ofStr r.modifier.code) (.str py!"AUTO")) &&
    (same (.ofStr r.modifier.description) (.str py!"Automatic report")) &&
    (same (.str r.modifier.str) (.str py!"automatic report")) &&
    (same (PyVal.dict r.modifier.dict) (.dict [(py!"code", .str py!"AUTO"), (py!"modifier", .str py!"Automatic report")]))) = true := by decide +kernel

/-! `test_nil_modifier` (tests/metar/test_modifier.py 15-21) -/

example : ok (Metar.new testDb testClock
    py!"METAR KJST 060100Z NIL"
    ⟨none, none, false⟩) (fun r =>
    (same (.ofStr r.modifier.code) (.str py!"NIL")) &&
    (same (.ofStr r.modifier.description) (.str py!"Missing report")) &&
    (same (.str r.modifier.str) (.str py!"missing report")) &&
    (same (PyVal.dict r.modifier.dict) (.dict [(py!"code", .str py!"NIL"), (py!"modifier", .str py!"Missing report")]))) = true := by decide +kernel

/-! `test_cor_modifier` (tests/metar/test_modifier.py 24-30) -/

example : ok (Metar.new testDb testClock
    py!"METAR MROC 202200Z COR 08011KT 9999 FEW045 SCT200 29/17 A2989 NOSIG"
    ⟨none, none, false⟩) (fun r =>
    (same (.ofStr r.modifier.code) (.str py!"COR")) &&
    (same (.ofStr r.modifier.description) (.str py!"Correction")) &&
    (same (.str r.modifier.str) (.str py!"correction")) &&
    (same (PyVal.dict r.modifier.dict) (.dict [(py!"code", .str py!"COR"), (py!"modifier", .str py!"Correction")]))) = true := by decide +kernel

/-! `test_no_modifier` (tests/metar/test_modifier.py 33-41) -/

example : ok (Metar.new testDb testClock
    py!"SPECI UUDD 152330Z 29005MPS 9999 SCT019 07/04 Q1014 R32L/290042 NOSIG"
    ⟨none, none, false⟩) (fun r =>
    (same (.ofStr r.modifier.code) (.none)) &&
    (same (.ofStr r.modifier.description) (.none)) &&
    (same (.str r.modifier.str) (.str [])) &&
    (same (PyVal.dict r.modifier.dict) (.dict [(py!"code", .none), (py!"modifier", .none)]))) = true := by decide +kernel

end Verif.Tests
