import Verif.Tests.Database

/-
The assertions of tests/metar/test_type.py, checked of the model. Generated by tools/tests2lean.py.
-/

namespace Verif.Tests

/-! `test_metar_type` (tests/metar/test_type.py 4-12) -/

example : ok (Metar.new testDb testClock
    py!"METAR UUDD 060000Z 18004MPS CAVOK M01/M04 Q1002 R14R/CLRD60 NOSIG"
    ⟨none, none, false⟩) (fun r =>
    (same (.ofStr r.type.code) (.str py!"METAR")) &&
    (same (.ofStr r.type.type_) (.str py!"Meteorological Aerodrome Report")) &&
    (same (.str r.type.str) (.str py!"Meteorological Aerodrome Report (METAR)")) &&
    (same r.type.dict (.dict [(py!"code", .str py!"METAR"), (py!"type", .str py!"Meteorological Aerodrome Report")]))) = true := by decide +kernel

/-! `test_special_type` (tests/metar/test_type.py 15-23) -/

example : ok (Metar.new testDb testClock
    py!"SPECI UUDD 060030Z 18004MPS CAVOK M01/M04 Q1002 R14R/CLRD60 NOSIG"
    ⟨none, none, false⟩) (fun r =>
    (same (.ofStr r.type.code) (.str py!"SPECI")) &&
    (same (.ofStr r.type.type_) (.str py!"Special Aerodrome Report")) &&
    (same (.str r.type.str) (.str py!"Special Aerodrome Report (SPECI)")) &&
    (same r.type.dict (.dict [(py!"code", .str py!"SPECI"), (py!"type", .str py!"Special Aerodrome Report")]))) = true := by decide +kernel

/-! `test_no_type` (tests/metar/test_type.py 26-34) -/

example : ok (Metar.new testDb testClock
    py!"UUDD 060030Z 18004MPS CAVOK M01/M04 Q1002 R14R/CLRD60 NOSIG"
    ⟨none, none, false⟩) (fun r =>
    (same (.ofStr r.type.code) (.str py!"METAR")) &&
    (same (.ofStr r.type.type_) (.str py!"Meteorological Aerodrome Report")) &&
    (same (.str r.type.str) (.str py!"Meteorological Aerodrome Report (METAR)")) &&
    (same r.type.dict (.dict [(py!"code", .str py!"METAR"), (py!"type", .str py!"Meteorological Aerodrome Report")]))) = true := by decide +kernel

end Verif.Tests
