import Verif.Tests.Database

/-
The assertions of tests/taf/test_type.py, checked of the model. Generated by tools/tests2lean.py.
-/

namespace Verif.Tests

/-! `test_taf_type_first_sample` (tests/taf/test_type.py 4-15) -/

example : ok (Taf.new testDb testClock
    py!"\n    TAF UUDD 221352Z 2215/2321 22007MPS 9999 BKN016 TX04/2215Z TNM03/2321Z\n        TEMPO 2215/2221 22012G17MPS 2000 SHSNRA FEW007 BKN016CB\n        BECMG 2306/2308 28007MPS\n        BECMG 2315/2317 28002MPS\n    "
    ⟨none, none, false⟩) (fun r =>
    (same (.ofStr r.type.code) (.str py!"TAF")) &&
    (same (.ofStr r.type.type_) (.str py!"Terminal Aerodrome Forecast")) &&
    (same (.str r.type.str) (.str py!"Terminal Aerodrome Forecast (TAF)")) &&
    (same r.type.dict (.dict [(py!"code", .str py!"TAF"), (py!"type", .str py!"Terminal Aerodrome Forecast")]))) = true := by decide +kernel

/-! `test_taf_type_second_sample` (tests/taf/test_type.py 18-29) -/

example : ok (Taf.new testDb testClock
    py!"\n    TAF MMPQ 221654Z 2218/2318 10015KT P6SM SCT020\n        FM230300 13010KT P6SM BKN010\n        TEMPO 2308/2312 3SM -RA BKN005\n        FM231500 12010KT 4SM HZ SCT010\n    "
    ⟨none, none, false⟩) (fun r =>
    (same (.ofStr r.type.code) (.str py!"TAF")) &&
    (same (.ofStr r.type.type_) (.str py!"Terminal Aerodrome Forecast")) &&
    (same (.str r.type.str) (.str py!"Terminal Aerodrome Forecast (TAF)")) &&
    (same r.type.dict (.dict [(py!"code", .str py!"TAF"), (py!"type", .str py!"Terminal Aerodrome Forecast")]))) = true := by decide +kernel

/-! `test_no_taf_type` (tests/taf/test_type.py 32-42) -/

example : ok (Taf.new testDb testClock
    py!"\n    MRLM 221100Z 2212/2312 24005KT 9999 FEW025 TX30/2221Z TN19/2311Z\n        BECMG 2215/2217 07006KT\n        BECMG 2300/2303 25004KT\n    "
    ⟨none, none, false⟩) (fun r =>
    (same (.ofStr r.type.code) (.str py!"TAF")) &&
    (same (.ofStr r.type.type_) (.str py!"Terminal Aerodrome Forecast")) &&
    (same (.str r.type.str) (.str py!"Terminal Aerodrome Forecast (TAF)")) &&
    (same r.type.dict (.dict [(py!"code", .str py!"TAF"), (py!"type", .str py!"Terminal Aerodrome Forecast")]))) = true := by decide +kernel

end Verif.Tests
