import Verif.Tests.Database

/-
The assertions of tests/metar/test_pressure.py, checked of the model. Generated by tools/tests2lean.py.
-/

namespace Verif.Tests

/-! `test_from_hpa` (tests/metar/test_pressure.py 5-16) -/

example : ok (Metar.new testDb testClock
    py!"METAR OESH 201700Z 06004KT CAVOK 31/00 Q1013 NOSIG"
    ⟨none, none, false⟩) (fun r =>
    (same (.ofStr r.pressure.code) (.str py!"Q1013")) &&
    (same (.ofFloat r.pressure.value) (num 1013 1)) &&
    (approx (.ofFloat (inInHg r.pressure.value)) (mkRat (8418916553415721) 281474976710656) (mkRat (4150517416584649) 4611686018427387904)) &&
    (same (.ofFloat (inMbar r.pressure.value)) (num 1013 1)) &&
    (approx (.ofFloat (inBar r.pressure.value)) (mkRat (570268302815789) 562949953421312) (mkRat (4722366482869645) 4722366482869645213696)) &&
    (approx (.ofFloat (inAtm r.pressure.value)) (mkRat (9004976901112879) 9007199254740992) (mkRat (4722366482869645) 4722366482869645213696)) &&
    (same (.str r.pressure.str) (.str py!"1013.0 hPa")) &&
    (same r.pressure.dict (.dict [(py!"pressure", num 1013 1), (py!"units", .str py!"hectopascals")]))) = true := by decide +kernel

/-! `test_from_inhg` (tests/metar/test_pressure.py 19-30) -/

example : ok (Metar.new testDb testClock
    py!"METAR MMGL 201721Z 00000KT 7SM NSC 26/M07 A3025 RMK HZY CI"
    ⟨none, none, false⟩) (fun r =>
    (same (.ofStr r.pressure.code) (.str py!"A3025")) &&
    (approx (.ofFloat r.pressure.value) (mkRat (1126317721261179) 1099511627776) (mkRat (1152921504606847) 1152921504606846976)) &&
    (approx (.ofFloat (inInHg r.pressure.value)) (mkRat (121) 4) (mkRat (4722366482869645) 4722366482869645213696)) &&
    (approx (.ofFloat (inMbar r.pressure.value)) (mkRat (1126317721261179) 1099511627776) (mkRat (1152921504606847) 1152921504606846976)) &&
    (approx (.ofFloat (inBar r.pressure.value)) (mkRat (4613397386285789) 4503599627370496) (mkRat (4722366482869645) 2361183241434822606848)) &&
    (approx (.ofFloat (inAtm r.pressure.value)) (mkRat (1138269509827477) 1125899906842624) (mkRat (4722366482869645) 4722366482869645213696)) &&
    (same (.str r.pressure.str) (.str py!"1024.4 hPa")) &&
    (same r.pressure.dict (.dict [(py!"pressure", num 563159951578451 549755813888), (py!"units", .str py!"hectopascals")]))) = true := by decide +kernel

/-! `test_two_pressures_from_hPa_and_inHg` (tests/metar/test_pressure.py 33-44) -/

example : ok (Metar.new testDb testClock
    py!"METAR MSSS 091250Z 00000KT 5000 BR FEW040CB 22/21 Q1013 A2993"
    ⟨none, none, false⟩) (fun r =>
    (same (.ofStr r.pressure.code) (.str py!"A2993")) &&
    (approx (.ofFloat r.pressure.value) (mkRat (1114399015216087) 1099511627776) (mkRat (3602879701896397) 72057594037927936)) &&
    (approx (.ofFloat (inInHg r.pressure.value)) (mkRat (8418916553415721) 281474976710656) (mkRat (4150517416584649) 4611686018427387904)) &&
    (approx (.ofFloat (inMbar r.pressure.value)) (mkRat (1114399015216087) 1099511627776) (mkRat (3602879701896397) 72057594037927936)) &&
    (approx (.ofFloat (inBar r.pressure.value)) (mkRat (570268302815789) 562949953421312) (mkRat (5764607523034235) 1152921504606846976)) &&
    (approx (.ofFloat (inAtm r.pressure.value)) (mkRat (4504905671262433) 4503599627370496) (mkRat (5902958103587057) 590295810358705651712)) &&
    (same (.str r.pressure.str) (.str py!"1013.5 hPa")) &&
    (same r.pressure.dict (.dict [(py!"pressure", num 8915240912790275 8796093022208), (py!"units", .str py!"hectopascals")]))) = true := by decide +kernel

/-! `test_no_pressure` (tests/metar/test_pressure.py 47-60) -/

example : ok (Metar.new testDb testClock
    py!"SPECI KMIA 152353Z 00000KT 10SM FEW024 BKN150 BKN250 27/23 A//// RMK AO2 RAB2254E04 SLP127 P0000 60029 T02670233 10317 20256 50004 $"
    ⟨none, none, false⟩) (fun r =>
    (same (.ofStr r.pressure.code) (.str py!"A////")) &&
    (same (.ofFloat r.pressure.value) (.none)) &&
    (same (.ofFloat (inInHg r.pressure.value)) (.none)) &&
    (same (.ofFloat (inMbar r.pressure.value)) (.none)) &&
    (same (.ofFloat (inBar r.pressure.value)) (.none)) &&
    (same (.ofFloat (inAtm r.pressure.value)) (.none)) &&
    (same (.str r.pressure.str) (.str [])) &&
    (same r.pressure.dict (.dict [(py!"pressure", .none), (py!"units", .str py!"hectopascals")]))) = true := by decide +kernel

end Verif.Tests
