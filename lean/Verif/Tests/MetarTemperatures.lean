import Verif.Tests.Database

/-
The assertions of tests/metar/test_temperatures.py, checked of the model. Generated by tools/tests2lean.py.
-/

namespace Verif.Tests

/-! `test_positive_temperatures` (tests/metar/test_temperatures.py 6-26) -/

example : ok (Metar.new testDb testClock
    py!"METAR LHBP 191530Z 17007KT 9999 VCSH FEW018CB SCT029 04/02 Q1015 NOSIG"
    ⟨none, none, false⟩) (fun r =>
    (same (.ofStr r.temperatures.code) (.str py!"04/02")) &&
    (same (.ofFloat r.temperatures.temperature) (num 4 1)) &&
    (same (.ofFloat (inKelvin r.temperatures.temperature)) (num 2437837181104947 8796093022208)) &&
    (approx (.ofFloat (inFahrenheit r.temperatures.temperature)) (mkRat (2758454771764429) 70368744177664) (mkRat (4722366482869645) 4722366482869645213696)) &&
    (approx (.ofFloat (inRankine r.temperatures.temperature)) (mkRat (4388106925988905) 8796093022208) (mkRat (4722366482869645) 4722366482869645213696)) &&
    (same (.ofFloat r.temperatures.dewpoint) (num 2 1)) &&
    (same (.ofFloat (inKelvin r.temperatures.dewpoint)) (num 2420244995060531 8796093022208)) &&
    (approx (.ofFloat (inFahrenheit r.temperatures.dewpoint)) (mkRat (5010254585449677) 140737488355328) (mkRat (4722366482869645) 4722366482869645213696)) &&
    (approx (.ofFloat (inRankine r.temperatures.dewpoint)) (mkRat (1089110247777239) 2199023255552) (mkRat (4722366482869645) 4722366482869645213696)) &&
    (same (.str r.temperatures.str) (.str py!"temperature: 4.0°C | dewpoint: 2.0°C")) &&
    (same r.temperatures.dict (.dict [(py!"code", .str py!"04/02"), (py!"dewpoint", .dict [(py!"temperature", num 2 1), (py!"units", .str py!"celsius")]), (py!"temperature", .dict [(py!"temperature", num 4 1), (py!"units", .str py!"celsius")])]))) = true := by decide +kernel

/-! `test_negative_temperatures` (tests/metar/test_temperatures.py 29-49) -/

example : ok (Metar.new testDb testClock
    py!"METAR LHBP 191530Z 17007KT 9999 VCSH FEW018CB SCT029 M01/M04 Q1015 NOSIG"
    ⟨none, none, false⟩) (fun r =>
    (same (.ofStr r.temperatures.code) (.str py!"M01/M04")) &&
    (same (.ofFloat r.temperatures.temperature) (num (-1) 1)) &&
    (same (.ofFloat (inKelvin r.temperatures.temperature)) (num 2393856715993907 8796093022208)) &&
    (approx (.ofFloat (inFahrenheit r.temperatures.temperature)) (mkRat (8500544296661811) 281474976710656) (mkRat (4722366482869645) 4722366482869645213696)) &&
    (approx (.ofFloat (inRankine r.temperatures.temperature)) (mkRat (4308942088789033) 8796093022208) (mkRat (4722366482869645) 4722366482869645213696)) &&
    (same (.ofFloat r.temperatures.dewpoint) (num (-4) 1)) &&
    (same (.ofFloat (inKelvin r.temperatures.dewpoint)) (num 2367468436927283 8796093022208)) &&
    (approx (.ofFloat (inFahrenheit r.temperatures.dewpoint)) (mkRat (6980579422424269) 281474976710656) (mkRat (4722366482869645) 4722366482869645213696)) &&
    (approx (.ofFloat (inRankine r.temperatures.dewpoint)) (mkRat (2130721593234555) 4398046511104) (mkRat (4722366482869645) 4722366482869645213696)) &&
    (same (.str r.temperatures.str) (.str py!"temperature: -1.0°C | dewpoint: -4.0°C")) &&
    (same r.temperatures.dict (.dict [(py!"code", .str py!"M01/M04"), (py!"dewpoint", .dict [(py!"temperature", num (-4) 1), (py!"units", .str py!"celsius")]), (py!"temperature", .dict [(py!"temperature", num (-1) 1), (py!"units", .str py!"celsius")])]))) = true := by decide +kernel

/-! `test_no_temperatures` (tests/metar/test_temperatures.py 52-70) -/

example : ok (Metar.new testDb testClock
    py!"METAR MSSS 182050Z 17011KT 130V220 9999 FEW060 ///// Q1012 A2990"
    ⟨none, none, false⟩) (fun r =>
    (same (.ofStr r.temperatures.code) (.str py!"/////")) &&
    (same (.ofFloat r.temperatures.temperature) (.none)) &&
    (same (.ofFloat (inKelvin r.temperatures.temperature)) (.none)) &&
    (same (.ofFloat (inFahrenheit r.temperatures.temperature)) (.none)) &&
    (same (.ofFloat (inRankine r.temperatures.temperature)) (.none)) &&
    (same (.ofFloat r.temperatures.dewpoint) (.none)) &&
    (same (.ofFloat (inKelvin r.temperatures.dewpoint)) (.none)) &&
    (same (.ofFloat (inFahrenheit r.temperatures.dewpoint)) (.none)) &&
    (same (.ofFloat (inRankine r.temperatures.dewpoint)) (.none)) &&
    (same (.str r.temperatures.str) (.str [])) &&
    (same r.temperatures.dict (.dict [(py!"code", .str py!"/////"), (py!"dewpoint", .dict [(py!"temperature", .none), (py!"units", .str py!"celsius")]), (py!"temperature", .dict [(py!"temperature", .none), (py!"units", .str py!"celsius")])]))) = true := by decide +kernel

end Verif.Tests
