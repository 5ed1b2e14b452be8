import Verif.Tests.Database

/-
The assertions of tests/metar/test_visibility.py, checked of the model. Generated by tools/tests2lean.py.
-/

namespace Verif.Tests

/-! `test_visibility_from_meters` (tests/metar/test_visibility.py 4-28) -/

example : ok (Metar.new testDb testClock
    py!"METAR SBBV 170400Z 08004KT 9999 SCT030 FEW035TCU BKN070 26/23 Q1012"
    ⟨none, none, false⟩) (fun r =>
    (same (.ofStr r.core.prevailing.code) (.str py!"9999")) &&
    (same (.ofFloat r.core.prevailing.vis) (num 10000 1)) &&
    (same (.ofFloat (inKilometers r.core.prevailing.vis)) (num 10 1)) &&
    (same (.ofFloat (inSeaMiles r.core.prevailing.vis)) (num 6079373147098401 1125899906842624)) &&
    (same (.ofFloat (inFeet r.core.prevailing.vis)) (num 1127288004199475 34359738368)) &&
    (same (.bool r.core.prevailing.cavok) (.bool false)) &&
    (same (.ofStr (r.core.prevailing.direction.cardinal)) (.none)) &&
    (same (.ofFloat r.core.prevailing.direction.value) (.none)) &&
    (same (.ofFloat (r.core.prevailing.direction.inRadians)) (.none)) &&
    (same (.str r.core.prevailing.str) (.str py!"10.0 km")) &&
    (same r.core.prevailing.dictPrev (.dict [(py!"cavok", .bool false), (py!"code", .str py!"9999"), (py!"direction", .dict [(py!"cardinal", .none), (py!"direction", .none), (py!"units", .str py!"degrees"), (py!"variable", .bool false)]), (py!"visibility", .dict [(py!"distance", num 10000 1), (py!"units", .str py!"meters")])]))) = true := by decide +kernel

/-! `test_visibility_from_seamiles` (tests/metar/test_visibility.py 31-57) -/

example : ok (Metar.new testDb testClock
    py!"METAR PALH 170933Z 00000KT 1 1/4SM BR FEW002 M14/M16 A2980 RMK AO2 T11441156"
    ⟨none, none, false⟩) (fun r =>
    (same (.ofStr r.core.prevailing.code) (.str py!"1 1/4SM")) &&
    (same (.ofFloat r.core.prevailing.vis) (num 2315 1)) &&
    (same (.ofFloat (inKilometers r.core.prevailing.vis)) (num 5212916568681349 2251799813685248)) &&
    (same (.ofFloat (inSeaMiles r.core.prevailing.vis)) (num 5629499534213119 4503599627370496)) &&
    (same (.ofFloat (inFeet r.core.prevailing.vis)) (num 4175474767554855 549755813888)) &&
    (same (.bool r.core.prevailing.cavok) (.bool false)) &&
    (same (.ofStr (r.core.prevailing.direction.cardinal)) (.none)) &&
    (same (.ofFloat r.core.prevailing.direction.value) (.none)) &&
    (same (.ofFloat (r.core.prevailing.direction.inRadians)) (.none)) &&
    (same (.str r.core.prevailing.str) (.str py!"2.3 km")) &&
    (same r.core.prevailing.dictPrev (.dict [(py!"cavok", .bool false), (py!"code", .str py!"1 1/4SM"), (py!"direction", .dict [(py!"cardinal", .none), (py!"direction", .none), (py!"units", .str py!"degrees"), (py!"variable", .bool false)]), (py!"visibility", .dict [(py!"distance", num 2315 1), (py!"units", .str py!"meters")])]))) = true := by decide +kernel

/-! `test_visibility_from_seamiles_only_fraction` (tests/metar/test_visibility.py 60-86) -/

example : ok (Metar.new testDb testClock
    py!"METAR PALH 170933Z 00000KT 1/2SM BR FEW002 M14/M16 A2980 RMK AO2 T11441156"
    ⟨none, none, false⟩) (fun r =>
    (same (.ofStr r.core.prevailing.code) (.str py!"1/2SM")) &&
    (same (.ofFloat r.core.prevailing.vis) (num 926 1)) &&
    (same (.ofFloat (inKilometers r.core.prevailing.vis)) (num 8340666509890159 9007199254740992)) &&
    (same (.ofFloat (inSeaMiles r.core.prevailing.vis)) (num 9007199254740991 18014398509481984)) &&
    (same (.ofFloat (inFeet r.core.prevailing.vis)) (num 835094953510971 274877906944)) &&
    (same (.bool r.core.prevailing.cavok) (.bool false)) &&
    (same (.ofStr (r.core.prevailing.direction.cardinal)) (.none)) &&
    (same (.ofFloat r.core.prevailing.direction.value) (.none)) &&
    (same (.ofFloat (r.core.prevailing.direction.inRadians)) (.none)) &&
    (same (.str r.core.prevailing.str) (.str py!"0.9 km")) &&
    (same r.core.prevailing.dictPrev (.dict [(py!"cavok", .bool false), (py!"code", .str py!"1/2SM"), (py!"direction", .dict [(py!"cardinal", .none), (py!"direction", .none), (py!"units", .str py!"degrees"), (py!"variable", .bool false)]), (py!"visibility", .dict [(py!"distance", num 926 1), (py!"units", .str py!"meters")])]))) = true := by decide +kernel

/-! `test_visibility_from_kilometers` (tests/metar/test_visibility.py 89-113) -/

example : ok (Metar.new testDb testClock
    py!"METAR SCAT 210900Z AUTO 18005KT 5KM OVC027/// 16/12 Q1013"
    ⟨none, none, false⟩) (fun r =>
    (same (.ofStr r.core.prevailing.code) (.str py!"5KM")) &&
    (same (.ofFloat r.core.prevailing.vis) (num 5000 1)) &&
    (same (.ofFloat (inKilometers r.core.prevailing.vis)) (num 5 1)) &&
    (same (.ofFloat (inSeaMiles r.core.prevailing.vis)) (num 6079373147098401 2251799813685248)) &&
    (same (.ofFloat (inFeet r.core.prevailing.vis)) (num 1127288004199475 68719476736)) &&
    (same (.bool r.core.prevailing.cavok) (.bool false)) &&
    (same (.ofStr (r.core.prevailing.direction.cardinal)) (.none)) &&
    (same (.ofFloat r.core.prevailing.direction.value) (.none)) &&
    (same (.ofFloat (r.core.prevailing.direction.inRadians)) (.none)) &&
    (same (.str r.core.prevailing.str) (.str py!"5.0 km")) &&
    (same r.core.prevailing.dictPrev (.dict [(py!"cavok", .bool false), (py!"code", .str py!"5KM"), (py!"direction", .dict [(py!"cardinal", .none), (py!"direction", .none), (py!"units", .str py!"degrees"), (py!"variable", .bool false)]), (py!"visibility", .dict [(py!"distance", num 5000 1), (py!"units", .str py!"meters")])]))) = true := by decide +kernel

/-! `test_visibility_from_cavok` (tests/metar/test_visibility.py 116-140) -/

example : ok (Metar.new testDb testClock
    py!"METAR SAAR 222000Z 13011KT 100V160 CAVOK 32/15 Q1012 RMK PP000"
    ⟨none, none, false⟩) (fun r =>
    (same (.ofStr r.core.prevailing.code) (.str py!"CAVOK")) &&
    (same (.ofFloat r.core.prevailing.vis) (num 10000 1)) &&
    (same (.ofFloat (inKilometers r.core.prevailing.vis)) (num 10 1)) &&
    (same (.ofFloat (inSeaMiles r.core.prevailing.vis)) (num 6079373147098401 1125899906842624)) &&
    (same (.ofFloat (inFeet r.core.prevailing.vis)) (num 1127288004199475 34359738368)) &&
    (same (.bool r.core.prevailing.cavok) (.bool true)) &&
    (same (.ofStr (r.core.prevailing.direction.cardinal)) (.none)) &&
    (same (.ofFloat r.core.prevailing.direction.value) (.none)) &&
    (same (.ofFloat (r.core.prevailing.direction.inRadians)) (.none)) &&
    (same (.str r.core.prevailing.str) (.str py!"Ceiling and Visibility OK")) &&
    (same r.core.prevailing.dictPrev (.dict [(py!"cavok", .bool true), (py!"code", .str py!"CAVOK"), (py!"direction", .dict [(py!"cardinal", .none), (py!"direction", .none), (py!"units", .str py!"degrees"), (py!"variable", .bool false)]), (py!"visibility", .dict [(py!"distance", num 10000 1), (py!"units", .str py!"meters")])]))) = true := by decide +kernel

/-! `test_no_visibility` (tests/metar/test_visibility.py 143-169) -/

example : ok (Metar.new testDb testClock
    py!"METAR PALH 170933Z 00000KT BR FEW002 M14/M16 A2980 RMK AO2 T11441156"
    ⟨none, none, false⟩) (fun r =>
    (same (.ofStr r.core.prevailing.code) (.none)) &&
    (same (.ofFloat r.core.prevailing.vis) (.none)) &&
    (same (.ofFloat (inKilometers r.core.prevailing.vis)) (.none)) &&
    (same (.ofFloat (inSeaMiles r.core.prevailing.vis)) (.none)) &&
    (same (.ofFloat (inFeet r.core.prevailing.vis)) (.none)) &&
    (same (.bool r.core.prevailing.cavok) (.bool false)) &&
    (same (.ofStr (r.core.prevailing.direction.cardinal)) (.none)) &&
    (same (.ofFloat r.core.prevailing.direction.value) (.none)) &&
    (same (.ofFloat (r.core.prevailing.direction.inRadians)) (.none)) &&
    (same (.str r.core.prevailing.str) (.str [])) &&
    (same r.core.prevailing.dictPrev (.dict [(py!"cavok", .bool false), (py!"code", .none), (py!"direction", .dict [(py!"cardinal", .none), (py!"direction", .none), (py!"units", .str py!"degrees"), (py!"variable", .bool false)]), (py!"visibility", .dict [(py!"distance", .none), (py!"units", .str py!"meters")])]))) = true := by decide +kernel

/-! `test_minimum_visibility` (tests/metar/test_visibility.py 172-196) -/

example : ok (Metar.new testDb testClock
    py!"METAR UUDD 180100Z 00000MPS 4800 2100NW -SN BR SCT025 M02/M03 Q1007 R32L/290042 NOSIG"
    ⟨none, none, false⟩) (fun r =>
    (same (.ofStr r.minimumVisibility.code) (.str py!"2100NW")) &&
    (same (.ofFloat r.minimumVisibility.vis) (num 2100 1)) &&
    (same (.ofFloat (inKilometers r.minimumVisibility.vis)) (num 4728779608739021 2251799813685248)) &&
    (same (.ofFloat (inSeaMiles r.minimumVisibility.vis)) (num 5106673443562657 4503599627370496)) &&
    (same (.ofFloat (inFeet r.minimumVisibility.vis)) (num 946921923527559 137438953472)) &&
    (same (.ofStr (r.minimumVisibility.direction.cardinal)) (.str py!"NW")) &&
    (same (.ofFloat r.minimumVisibility.direction.value) (num 315 1)) &&
    (same (.ofFloat (r.minimumVisibility.direction.inRadians)) (num 6189958033024885 1125899906842624)) &&
    (same (.str r.minimumVisibility.str) (.str py!"2.1 km to NW (315.0°)")) &&
    (same (PyVal.dict r.minimumVisibility.dictMin) (.dict [(py!"code", .str py!"2100NW"), (py!"direction", .dict [(py!"cardinal", .str py!"NW"), (py!"direction", num 315 1), (py!"units", .str py!"degrees"), (py!"variable", .bool false)]), (py!"visibility", .dict [(py!"distance", num 2100 1), (py!"units", .str py!"meters")])]))) = true := by decide +kernel

/-! `test_no_minimum_visibility` (tests/metar/test_visibility.py 199-223) -/

example : ok (Metar.new testDb testClock
    py!"METAR UUDD 180100Z 25005MPS 4800 -SN BR SCT025 M02/M03 Q1007 R32L/290042 NOSIG"
    ⟨none, none, false⟩) (fun r =>
    (same (.ofStr r.minimumVisibility.code) (.none)) &&
    (same (.ofFloat r.minimumVisibility.vis) (.none)) &&
    (same (.ofFloat (inKilometers r.minimumVisibility.vis)) (.none)) &&
    (same (.ofFloat (inSeaMiles r.minimumVisibility.vis)) (.none)) &&
    (same (.ofFloat (inFeet r.minimumVisibility.vis)) (.none)) &&
    (same (.ofStr (r.minimumVisibility.direction.cardinal)) (.none)) &&
    (same (.ofFloat r.minimumVisibility.direction.value) (.none)) &&
    (same (.ofFloat (r.minimumVisibility.direction.inRadians)) (.none)) &&
    (same (.str r.minimumVisibility.str) (.str [])) &&
    (same (PyVal.dict r.minimumVisibility.dictMin) (.dict [(py!"code", .none), (py!"direction", .dict [(py!"cardinal", .none), (py!"direction", .none), (py!"units", .str py!"degrees"), (py!"variable", .bool false)]), (py!"visibility", .dict [(py!"distance", .none), (py!"units", .str py!"meters")])]))) = true := by decide +kernel

end Verif.Tests
