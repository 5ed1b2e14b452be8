import Verif.Tests.Database

/-
The assertions of tests/metar/test_recent_weather.py, checked of the model. Generated by tools/tests2lean.py.
-/

namespace Verif.Tests

/-! `test_recent_weather_first` (tests/metar/test_recent_weather.py 4-20) -/

example : ok (Metar.new testDb testClock
    py!"METAR MRLM 192300Z 05010KT 5000 +DZ FEW010 OVC080 24/23 A2987 RERA"
    ⟨none, none, false⟩) (fun r =>
    (same (.ofStr r.recentWeather.code) (.str py!"RERA")) &&
    (same (.ofStr r.recentWeather.description) (.none)) &&
    (same (.ofStr r.recentWeather.precipitation) (.str py!"rain")) &&
    (same (.ofStr r.recentWeather.obscuration) (.none)) &&
    (same (.ofStr r.recentWeather.other) (.none)) &&
    (same (.str r.recentWeather.str) (.str py!"rain")) &&
    (same r.recentWeather.dict (.dict [(py!"code", .str py!"RERA"), (py!"description", .none), (py!"obscuration", .none), (py!"other", .none), (py!"precipitation", .str py!"rain")]))) = true := by decide +kernel

/-! `test_recent_weather_second` (tests/metar/test_recent_weather.py 23-41) -/

example : ok (Metar.new testDb testClock
    py!"METAR SKBO 200800Z 36004KT 5000 RA FEW017 SCT070 10/09 Q1025 RETSGR NOSIG RMK A3029"
    ⟨none, none, false⟩) (fun r =>
    (same (.ofStr r.recentWeather.code) (.str py!"RETSGR")) &&
    (same (.ofStr r.recentWeather.description) (.str py!"thunderstorm")) &&
    (same (.ofStr r.recentWeather.precipitation) (.str py!"hail")) &&
    (same (.ofStr r.recentWeather.obscuration) (.none)) &&
    (same (.ofStr r.recentWeather.other) (.none)) &&
    (same (.str r.recentWeather.str) (.str py!"thunderstorm hail")) &&
    (same r.recentWeather.dict (.dict [(py!"code", .str py!"RETSGR"), (py!"description", .str py!"thunderstorm"), (py!"obscuration", .none), (py!"other", .none), (py!"precipitation", .str py!"hail")]))) = true := by decide +kernel

/-! `test_no_recent_weather` (tests/metar/test_recent_weather.py 44-60) -/

example : ok (Metar.new testDb testClock
    py!"METAR MRPV 160000Z 32006KT 4000 TSRA OVC008CB 20/20 A3002 NOSIG"
    ⟨none, none, false⟩) (fun r =>
    (same (.ofStr r.recentWeather.code) (.none)) &&
    (same (.ofStr r.recentWeather.description) (.none)) &&
    (same (.ofStr r.recentWeather.precipitation) (.none)) &&
    (same (.ofStr r.recentWeather.obscuration) (.none)) &&
    (same (.ofStr r.recentWeather.other) (.none)) &&
    (same (.str r.recentWeather.str) (.str [])) &&
    (same r.recentWeather.dict (.dict [(py!"code", .none), (py!"description", .none), (py!"obscuration", .none), (py!"other", .none), (py!"precipitation", .none)]))) = true := by decide +kernel

end Verif.Tests
