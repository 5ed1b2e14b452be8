import Verif.Tests.Database

/-
The assertions of tests/taf/test_temperatures.py, checked of the model. Generated by tools/tests2lean.py.
-/

namespace Verif.Tests

/-! `test_one_max_one_min_temperature_in_taf` (tests/taf/test_temperatures.py 9-67) -/

example : ok (Taf.new testDb testClock
    py!"\n    TAF AMD RKNY 021725Z 0218/0324 26017G35KT CAVOK TX07/0305Z TNM03/0321Z\n        BECMG 0223/0224 27010KT\n        BECMG 0302/0303 03006KT\n        BECMG 0308/0309 23006KT\n    "
    ⟨some 2020, some 5, false⟩) (fun r =>
    (same (ostrs (r.maxTemperatures.list.map (·.code))) (.list [.str py!"TX07/0305Z"])) &&
    (same (.str (r.maxTemperatures.str fun x => x.str)) (.str py!"7.0°C at 2020-05-03 05:00:00")) &&
    (ok (r.maxTemperatures.asDict fun x => .ok (x.dict)) fun v1 => same v1 (.dict [(py!"first", .dict [(py!"code", .none), (py!"datetime", .str py!"2020-05-03 05:00:00"), (py!"temperature", num 7 1), (py!"units", .str py!"celsius")])])) &&
    (ok (r.maxTemperatures.getItem 0) fun v2 => same (.ofStr v2.code) (.str py!"TX07/0305Z")) &&
    (ok (r.maxTemperatures.getItem 0) fun v2 => same (.str v2.str) (.str py!"7.0°C at 2020-05-03 05:00:00")) &&
    (ok (r.maxTemperatures.getItem 0) fun v2 => same (.ofFloat v2.value) (num 7 1)) &&
    (ok (r.maxTemperatures.getItem 0) fun v2 => same (.ofFloat (inKelvin v2.value)) (num 2464225460171571 8796093022208)) &&
    (ok (r.maxTemperatures.getItem 0) fun v2 => same (.ofFloat (inFahrenheit v2.value)) (num 6276891980647629 140737488355328)) &&
    (ok (r.maxTemperatures.getItem 0) fun v2 => approx (.ofFloat (inRankine v2.value)) (mkRat (1108901457077207) 2199023255552) (mkRat (4722366482869645) 4722366482869645213696)) &&
    (ok (r.maxTemperatures.getItem 0) fun v2 => same (nats v2.time.time.year) (num 2020 1)) &&
    (raises (r.maxTemperatures.getItem 1) .index) &&
    (same (ostrs (r.minTemperatures.list.map (·.code))) (.list [.str py!"TNM03/0321Z"])) &&
    (same (.str (r.minTemperatures.str fun x => x.str)) (.str py!"-3.0°C at 2020-05-03 21:00:00")) &&
    (ok (r.minTemperatures.asDict fun x => .ok (x.dict)) fun v4 => same v4 (.dict [(py!"first", .dict [(py!"code", .none), (py!"datetime", .str py!"2020-05-03 21:00:00"), (py!"temperature", num (-3) 1), (py!"units", .str py!"celsius")])])) &&
    (ok (r.minTemperatures.getItem 0) fun v5 => same (.ofStr v5.code) (.str py!"TNM03/0321Z")) &&
    (ok (r.minTemperatures.getItem 0) fun v5 => same (.str v5.str) (.str py!"-3.0°C at 2020-05-03 21:00:00")) &&
    (ok (r.minTemperatures.getItem 0) fun v5 => same (.ofFloat v5.value) (num (-3) 1)) &&
    (ok (r.minTemperatures.getItem 0) fun v5 => same (.ofFloat (inKelvin v5.value)) (num 2376264529949491 8796093022208)) &&
    (ok (r.minTemperatures.getItem 0) fun v5 => same (.ofFloat (inFahrenheit v5.value)) (num 3743617190251725 140737488355328)) &&
    (ok (r.minTemperatures.getItem 0) fun v5 => approx (.ofFloat (inRankine v5.value)) (mkRat (1069319038477271) 2199023255552) (mkRat (4722366482869645) 4722366482869645213696)) &&
    (ok (r.minTemperatures.getItem 0) fun v5 => same (nats v5.time.time.year) (num 2020 1)) &&
    (raises (r.minTemperatures.getItem 1) .index)) = true := by decide +kernel

/-! `test_two_max_temperatures_in_taf` (tests/taf/test_temperatures.py 70-109) -/

example : ok (Taf.new testDb testClock
    py!"TAF DXNG 301700Z 3018/3118 VRB03KT 9999 FEW010 TX30/3019Z TN20/3110Z TX28/3117Z"
    ⟨some 2020, some 5, false⟩) (fun r =>
    (same (ostrs (r.maxTemperatures.list.map (·.code))) (.list [.str py!"TX30/3019Z", .str py!"TX28/3117Z"])) &&
    (same (.str (r.maxTemperatures.str fun x => x.str)) (.str py!"30.0°C at 2020-05-30 19:00:00 | 28.0°C at 2020-05-31 17:00:00")) &&
    (ok (r.maxTemperatures.asDict fun x => .ok (x.dict)) fun v1 => same v1 (.dict [(py!"first", .dict [(py!"code", .none), (py!"datetime", .str py!"2020-05-30 19:00:00"), (py!"temperature", num 30 1), (py!"units", .str py!"celsius")]), (py!"second", .dict [(py!"code", .none), (py!"datetime", .str py!"2020-05-31 17:00:00"), (py!"temperature", num 28 1), (py!"units", .str py!"celsius")])])) &&
    (ok (r.maxTemperatures.getItem 0) fun v2 => same (.ofStr v2.code) (.str py!"TX30/3019Z")) &&
    (ok (r.maxTemperatures.getItem 0) fun v2 => same (.str v2.str) (.str py!"30.0°C at 2020-05-30 19:00:00")) &&
    (ok (r.maxTemperatures.getItem 0) fun v2 => same (.ofFloat v2.value) (num 30 1)) &&
    (ok (r.maxTemperatures.getItem 0) fun v2 => same (.ofFloat (inKelvin v2.value)) (num 2666535599682355 8796093022208)) &&
    (ok (r.maxTemperatures.getItem 0) fun v2 => same (.ofFloat (inFahrenheit v2.value)) (num 86 1)) &&
    (ok (r.maxTemperatures.getItem 0) fun v2 => approx (.ofFloat (inRankine v2.value)) (mkRat (4799764079428239) 8796093022208) (mkRat (4722366482869645) 4722366482869645213696)) &&
    (ok (r.maxTemperatures.getItem 1) fun v3 => same (.ofStr v3.code) (.str py!"TX28/3117Z")) &&
    (ok (r.maxTemperatures.getItem 1) fun v3 => same (.str v3.str) (.str py!"28.0°C at 2020-05-31 17:00:00")) &&
    (ok (r.maxTemperatures.getItem 1) fun v3 => same (.ofFloat v3.value) (num 28 1)) &&
    (ok (r.maxTemperatures.getItem 1) fun v3 => same (.ofFloat (inKelvin v3.value)) (num 2648943413637939 8796093022208)) &&
    (ok (r.maxTemperatures.getItem 1) fun v3 => same (.ofFloat (inFahrenheit v3.value)) (num 2899192260119757 35184372088832)) &&
    (ok (r.maxTemperatures.getItem 1) fun v3 => same (.ofFloat (inRankine v3.value)) (num 4768098144548291 8796093022208))) = true := by decide +kernel

/-! `test_no_temperatures_in_taf` (tests/taf/test_temperatures.py 112-129) -/

example : ok (Taf.new testDb testClock
    py!"\n    TAF RPMD 021700Z 0218/0318 36006KT 9999 FEW016 SCT090\n        TEMPO 0306/0312 13008KT -SHRA FEW014CB SCT015 BKN090\n    "
    ⟨some 2020, some 5, false⟩) (fun r =>
    (ok (r.maxTemperatures.asDict fun x => .ok (x.dict)) fun v1 => same v1 (.dict [])) &&
    (ok (r.minTemperatures.asDict fun x => .ok (x.dict)) fun v2 => same v2 (.dict [])) &&
    (raises (r.maxTemperatures.getItem 0) .index) &&
    (raises (r.minTemperatures.getItem 0) .index)) = true := by decide +kernel

end Verif.Tests
