import Verif.Tests.Database

/-
The assertions of tests/metar/test_sea_state.py, checked of the model. Generated by tools/tests2lean.py.
-/

namespace Verif.Tests

/-! `test_sea_state_with_positive_temperature` (tests/metar/test_sea_state.py 5-28) -/

example : ok (Metar.new testDb testClock
    py!"METAR LXGB 201950Z AUTO 09012KT 9999 BKN080/// 14/07 Q1016 RERA W20/S5"
    ⟨none, none, false⟩) (fun r =>
    (same (.ofStr r.seaState.code) (.str py!"W20/S5")) &&
    (same (.ofStr r.seaState.state) (.str py!"rough")) &&
    (same (.str r.seaState.str) (.str py!"temperature 20.0°C, no significant wave height, rough")) &&
    (same (.ofFloat r.seaState.temperature) (num 20 1)) &&
    (approx (.ofFloat (inFahrenheit r.seaState.temperature)) (mkRat (68) 1) (mkRat (4722366482869645) 4722366482869645213696)) &&
    (same (.ofFloat (inKelvin r.seaState.temperature)) (num 2578574669460275 8796093022208)) &&
    (approx (.ofFloat (inRankine r.seaState.temperature)) (mkRat (4641434405028495) 8796093022208) (mkRat (4722366482869645) 4722366482869645213696)) &&
    (same (.ofFloat r.seaState.height) (.none)) &&
    (same (.ofFloat r.seaState.inCentimeters) (.none)) &&
    (same (.ofFloat r.seaState.inDecimeters) (.none)) &&
    (same (.ofFloat (inFeet r.seaState.height)) (.none)) &&
    (same (.ofFloat r.seaState.inInches) (.none)) &&
    (same r.seaState.dict (.dict [(py!"code", .str py!"W20/S5"), (py!"height", .dict [(py!"distance", .none), (py!"units", .str py!"meters")]), (py!"state", .str py!"rough"), (py!"temperature", .dict [(py!"temperature", num 20 1), (py!"units", .str py!"celsius")])]))) = true := by decide +kernel

/-! `test_sea_state_with_negative_temperature` (tests/metar/test_sea_state.py 31-54) -/

example : ok (Metar.new testDb testClock
    py!"METAR LXGB 201950Z AUTO 09012KT 9999 BKN080/// 14/07 Q1016 RERA WM01/S8"
    ⟨none, none, false⟩) (fun r =>
    (same (.ofStr r.seaState.code) (.str py!"WM01/S8")) &&
    (same (.ofStr r.seaState.state) (.str py!"very high")) &&
    (same (.str r.seaState.str) (.str py!"temperature -1.0°C, no significant wave height, very high")) &&
    (same (.ofFloat r.seaState.temperature) (num (-1) 1)) &&
    (approx (.ofFloat (inFahrenheit r.seaState.temperature)) (mkRat (8500544296661811) 281474976710656) (mkRat (4722366482869645) 4722366482869645213696)) &&
    (same (.ofFloat (inKelvin r.seaState.temperature)) (num 2393856715993907 8796093022208)) &&
    (approx (.ofFloat (inRankine r.seaState.temperature)) (mkRat (4308942088789033) 8796093022208) (mkRat (4722366482869645) 4722366482869645213696)) &&
    (same (.ofFloat r.seaState.height) (.none)) &&
    (same (.ofFloat r.seaState.inCentimeters) (.none)) &&
    (same (.ofFloat r.seaState.inDecimeters) (.none)) &&
    (same (.ofFloat (inFeet r.seaState.height)) (.none)) &&
    (same (.ofFloat r.seaState.inInches) (.none)) &&
    (same r.seaState.dict (.dict [(py!"code", .str py!"WM01/S8"), (py!"height", .dict [(py!"distance", .none), (py!"units", .str py!"meters")]), (py!"state", .str py!"very high"), (py!"temperature", .dict [(py!"temperature", num (-1) 1), (py!"units", .str py!"celsius")])]))) = true := by decide +kernel

/-! `test_sea_state_with_significant_wave_height` (tests/metar/test_sea_state.py 57-83) -/

example : ok (Metar.new testDb testClock
    py!"METAR LXGB 032250Z 25006KT CAVOK 16/07 Q1022 W15/H008 NOSIG RMK BLU BLU"
    ⟨none, none, false⟩) (fun r =>
    (same (.ofStr r.seaState.code) (.str py!"W15/H008")) &&
    (same (.ofStr r.seaState.state) (.none)) &&
    (same (.str r.seaState.str) (.str py!"temperature 15.0°C, significant wave height 0.8 m, no sea state")) &&
    (same (.ofFloat r.seaState.temperature) (num 15 1)) &&
    (same (.ofFloat (inFahrenheit r.seaState.temperature)) (num 59 1)) &&
    (same (.ofFloat (inKelvin r.seaState.temperature)) (num 2534594204349235 8796093022208)) &&
    (approx (.ofFloat (inRankine r.seaState.temperature)) (mkRat (4562269567828623) 8796093022208) (mkRat (4722366482869645) 4722366482869645213696)) &&
    (same (.ofFloat r.seaState.height) (num 3602879701896397 4503599627370496)) &&
    (same (.ofFloat r.seaState.inCentimeters) (num 80 1)) &&
    (same (.ofFloat r.seaState.inDecimeters) (num 8 1)) &&
    (approx (.ofFloat (inFeet r.seaState.height)) (mkRat (1477557854246315) 562949953421312) (mkRat (4722366482869645) 4722366482869645213696)) &&
    (approx (.ofFloat r.seaState.inInches) (mkRat (4432679192238479) 140737488355328) (mkRat (4722366482869645) 4722366482869645213696)) &&
    (same r.seaState.dict (.dict [(py!"code", .str py!"W15/H008"), (py!"height", .dict [(py!"distance", num 3602879701896397 4503599627370496), (py!"units", .str py!"meters")]), (py!"state", .none), (py!"temperature", .dict [(py!"temperature", num 15 1), (py!"units", .str py!"celsius")])]))) = true := by decide +kernel

/-! `test_no_sea_state` (tests/metar/test_sea_state.py 86-107) -/

example : ok (Metar.new testDb testClock
    py!"METAR LXGB 201950Z AUTO 09012KT 9999 BKN080/// 14/07 Q1016 RERA"
    ⟨none, none, false⟩) (fun r =>
    (same (.ofStr r.seaState.code) (.none)) &&
    (same (.ofStr r.seaState.state) (.none)) &&
    (same (.str r.seaState.str) (.str [])) &&
    (same (.ofFloat r.seaState.temperature) (.none)) &&
    (same (.ofFloat (inFahrenheit r.seaState.temperature)) (.none)) &&
    (same (.ofFloat (inKelvin r.seaState.temperature)) (.none)) &&
    (same (.ofFloat (inRankine r.seaState.temperature)) (.none)) &&
    (same (.ofFloat r.seaState.height) (.none)) &&
    (same (.ofFloat r.seaState.inCentimeters) (.none)) &&
    (same (.ofFloat r.seaState.inDecimeters) (.none)) &&
    (same (.ofFloat (inFeet r.seaState.height)) (.none)) &&
    (same (.ofFloat r.seaState.inInches) (.none)) &&
    (same r.seaState.dict (.dict [(py!"code", .none), (py!"height", .dict [(py!"distance", .none), (py!"units", .str py!"meters")]), (py!"state", .none), (py!"temperature", .dict [(py!"temperature", .none), (py!"units", .str py!"celsius")])]))) = true := by decide +kernel

end Verif.Tests
