import Verif.Tests.Database

/-
The assertions of tests/metar/test_weather_trend_indicator.py, checked of the model. Generated by tools/tests2lean.py.
-/

namespace Verif.Tests

/-! `test_weather_trend_code_nosig` (tests/metar/test_weather_trend_indicator.py 10-52) -/

example : ok (Metar.new testDb testClock
    py!"METAR SEQM 050400Z 04010KT 9999 BKN006 OVC030 14/12 Q1028 NOSIG RMK A3037"
    ⟨some 2022, some 2, false⟩) (fun r =>
    (same (ostrs (r.weatherTrends.list.map (·.code))) (.list [.str py!"NOSIG"])) &&
    (same (.str (trendsStr r.weatherTrends)) (.str py!"no significant changes from 2022-02-05 04:00:00 until 2022-02-05 06:00:00")) &&
    (ok (r.weatherTrends.getItem 0) fun v1 => same (.ofStr v1.code) (.str py!"NOSIG")) &&
    (ok (r.weatherTrends.getItem 0) fun v1 => same (.ofStr v1.indicator.code) (.str py!"NOSIG")) &&
    (ok (r.weatherTrends.getItem 0) fun v1 => same (.ofStr v1.indicator.translation) (.str py!"no significant changes")) &&
    (ok (r.weatherTrends.getItem 0) fun v1 => same (nats v1.indicator.from_.time.year) (num 2022 1)) &&
    (ok (r.weatherTrends.getItem 0) fun v1 => same (nats v1.indicator.from_.time.month) (num 2 1)) &&
    (ok (r.weatherTrends.getItem 0) fun v1 => same (nats v1.indicator.from_.time.day) (num 5 1)) &&
    (ok (r.weatherTrends.getItem 0) fun v1 => same (nats v1.indicator.from_.time.hour) (num 4 1)) &&
    (ok (r.weatherTrends.getItem 0) fun v1 => same (nats v1.indicator.from_.time.minute) (num 0 1)) &&
    (ok (r.weatherTrends.getItem 0) fun v1 => same (nats v1.indicator.until_.time.year) (num 2022 1)) &&
    (ok (r.weatherTrends.getItem 0) fun v1 => same (nats v1.indicator.until_.time.month) (num 2 1)) &&
    (ok (r.weatherTrends.getItem 0) fun v1 => same (nats v1.indicator.until_.time.day) (num 5 1)) &&
    (ok (r.weatherTrends.getItem 0) fun v1 => same (nats v1.indicator.until_.time.hour) (num 6 1)) &&
    (ok (r.weatherTrends.getItem 0) fun v1 => same (nats v1.indicator.until_.time.minute) (num 0 1)) &&
    (ok (r.weatherTrends.getItem 0) fun v1 => v1.indicator.at_.isNone) &&
    (ok (r.weatherTrends.getItem 0) fun v1 => same v1.indicator.dict (.dict [(py!"at", .none), (py!"code", .str py!"NOSIG"), (py!"forecast_period", .dict [(py!"end", .dict [(py!"code", .none), (py!"datetime", .str py!"2022-02-05 06:00:00")]), (py!"init", .dict [(py!"code", .none), (py!"datetime", .str py!"2022-02-05 04:00:00")])]), (py!"from_", .dict [(py!"code", .none), (py!"datetime", .str py!"2022-02-05 04:00:00")]), (py!"translation", .str py!"no significant changes"), (py!"until", .dict [(py!"code", .none), (py!"datetime", .str py!"2022-02-05 06:00:00")])])) &&
    (raises (r.weatherTrends.getItem 1) .index)) = true := by decide +kernel

/-! `test_weather_trend_code_tempo` (tests/metar/test_weather_trend_indicator.py 55-98) -/

example : ok (Metar.new testDb testClock
    py!"SPECI MMMX 051347Z 07006KT 5SM SKC 05/02 A3044 TEMPO 3SM HZ RMK HZY ISOL SC LWR VSBY N"
    ⟨some 2022, some 2, false⟩) (fun r =>
    (same (ostrs (r.weatherTrends.list.map (·.code))) (.list [.str py!"TEMPO 3SM HZ"])) &&
    (same (.str (trendsStr r.weatherTrends)) (.str py!"temporary from 2022-02-05 13:47:00 until 2022-02-05 15:47:00\n5.6 km\nhaze")) &&
    (ok (r.weatherTrends.getItem 0) fun v1 => same (.ofStr v1.code) (.str py!"TEMPO 3SM HZ")) &&
    (ok (r.weatherTrends.getItem 0) fun v1 => same (.ofStr v1.indicator.code) (.str py!"TEMPO")) &&
    (ok (r.weatherTrends.getItem 0) fun v1 => same (.ofStr v1.indicator.translation) (.str py!"temporary")) &&
    (ok (r.weatherTrends.getItem 0) fun v1 => same (nats v1.indicator.from_.time.year) (num 2022 1)) &&
    (ok (r.weatherTrends.getItem 0) fun v1 => same (nats v1.indicator.from_.time.month) (num 2 1)) &&
    (ok (r.weatherTrends.getItem 0) fun v1 => same (nats v1.indicator.from_.time.day) (num 5 1)) &&
    (ok (r.weatherTrends.getItem 0) fun v1 => same (nats v1.indicator.from_.time.hour) (num 13 1)) &&
    (ok (r.weatherTrends.getItem 0) fun v1 => same (nats v1.indicator.from_.time.minute) (num 47 1)) &&
    (ok (r.weatherTrends.getItem 0) fun v1 => same (nats v1.indicator.until_.time.year) (num 2022 1)) &&
    (ok (r.weatherTrends.getItem 0) fun v1 => same (nats v1.indicator.until_.time.month) (num 2 1)) &&
    (ok (r.weatherTrends.getItem 0) fun v1 => same (nats v1.indicator.until_.time.day) (num 5 1)) &&
    (ok (r.weatherTrends.getItem 0) fun v1 => same (nats v1.indicator.until_.time.hour) (num 15 1)) &&
    (ok (r.weatherTrends.getItem 0) fun v1 => same (nats v1.indicator.until_.time.minute) (num 47 1)) &&
    (ok (r.weatherTrends.getItem 0) fun v1 => v1.indicator.at_.isNone) &&
    (ok (r.weatherTrends.getItem 0) fun v1 => same v1.indicator.dict (.dict [(py!"at", .none), (py!"code", .str py!"TEMPO"), (py!"forecast_period", .dict [(py!"end", .dict [(py!"code", .none), (py!"datetime", .str py!"2022-02-05 15:47:00")]), (py!"init", .dict [(py!"code", .none), (py!"datetime", .str py!"2022-02-05 13:47:00")])]), (py!"from_", .dict [(py!"code", .none), (py!"datetime", .str py!"2022-02-05 13:47:00")]), (py!"translation", .str py!"temporary"), (py!"until", .dict [(py!"code", .none), (py!"datetime", .str py!"2022-02-05 15:47:00")])])) &&
    (raises (r.weatherTrends.getItem 1) .index)) = true := by decide +kernel

/-! `test_weather_trend_code_becmg` (tests/metar/test_weather_trend_indicator.py 101-143) -/

example : ok (Metar.new testDb testClock
    py!"SPECI LYTV 040930Z VRB02KT CAVOK 12/M01 Q1023 BECMG 14005KT"
    ⟨some 2022, some 2, false⟩) (fun r =>
    (same (ostrs (r.weatherTrends.list.map (·.code))) (.list [.str py!"BECMG 14005KT"])) &&
    (same (.str (trendsStr r.weatherTrends)) (.str py!"becoming from 2022-02-04 09:30:00 until 2022-02-04 11:30:00\nSE (140.0°) 5.0 kt")) &&
    (ok (r.weatherTrends.getItem 0) fun v1 => same (.ofStr v1.code) (.str py!"BECMG 14005KT")) &&
    (ok (r.weatherTrends.getItem 0) fun v1 => same (.ofStr v1.indicator.code) (.str py!"BECMG")) &&
    (ok (r.weatherTrends.getItem 0) fun v1 => same (.ofStr v1.indicator.translation) (.str py!"becoming")) &&
    (ok (r.weatherTrends.getItem 0) fun v1 => same (nats v1.indicator.from_.time.year) (num 2022 1)) &&
    (ok (r.weatherTrends.getItem 0) fun v1 => same (nats v1.indicator.from_.time.month) (num 2 1)) &&
    (ok (r.weatherTrends.getItem 0) fun v1 => same (nats v1.indicator.from_.time.day) (num 4 1)) &&
    (ok (r.weatherTrends.getItem 0) fun v1 => same (nats v1.indicator.from_.time.hour) (num 9 1)) &&
    (ok (r.weatherTrends.getItem 0) fun v1 => same (nats v1.indicator.from_.time.minute) (num 30 1)) &&
    (ok (r.weatherTrends.getItem 0) fun v1 => same (nats v1.indicator.until_.time.year) (num 2022 1)) &&
    (ok (r.weatherTrends.getItem 0) fun v1 => same (nats v1.indicator.until_.time.month) (num 2 1)) &&
    (ok (r.weatherTrends.getItem 0) fun v1 => same (nats v1.indicator.until_.time.day) (num 4 1)) &&
    (ok (r.weatherTrends.getItem 0) fun v1 => same (nats v1.indicator.until_.time.hour) (num 11 1)) &&
    (ok (r.weatherTrends.getItem 0) fun v1 => same (nats v1.indicator.until_.time.minute) (num 30 1)) &&
    (ok (r.weatherTrends.getItem 0) fun v1 => v1.indicator.at_.isNone) &&
    (ok (r.weatherTrends.getItem 0) fun v1 => same v1.indicator.dict (.dict [(py!"at", .none), (py!"code", .str py!"BECMG"), (py!"forecast_period", .dict [(py!"end", .dict [(py!"code", .none), (py!"datetime", .str py!"2022-02-04 11:30:00")]), (py!"init", .dict [(py!"code", .none), (py!"datetime", .str py!"2022-02-04 09:30:00")])]), (py!"from_", .dict [(py!"code", .none), (py!"datetime", .str py!"2022-02-04 09:30:00")]), (py!"translation", .str py!"becoming"), (py!"until", .dict [(py!"code", .none), (py!"datetime", .str py!"2022-02-04 11:30:00")])])) &&
    (raises (r.weatherTrends.getItem 1) .index)) = true := by decide +kernel

/-! `test_weather_trend_code_becmg_with_from_period` (tests/metar/test_weather_trend_indicator.py 146-188) -/

example : ok (Metar.new testDb testClock
    py!"SPECI LTFG 061350Z 17004KT 120V240 9999 SCT030 16/09 Q1020 BECMG FM1410 22005KT"
    ⟨some 2022, some 2, false⟩) (fun r =>
    (same (ostrs (r.weatherTrends.list.map (·.code))) (.list [.str py!"BECMG FM1410 22005KT"])) &&
    (same (.str (trendsStr r.weatherTrends)) (.str py!"becoming from 2022-02-06 14:10:00 until 2022-02-06 15:50:00\nSW (220.0°) 5.0 kt")) &&
    (ok (r.weatherTrends.getItem 0) fun v1 => same (.ofStr v1.code) (.str py!"BECMG FM1410 22005KT")) &&
    (ok (r.weatherTrends.getItem 0) fun v1 => same (.ofStr v1.indicator.code) (.str py!"BECMG FM1410")) &&
    (ok (r.weatherTrends.getItem 0) fun v1 => same (.ofStr v1.indicator.translation) (.str py!"becoming")) &&
    (ok (r.weatherTrends.getItem 0) fun v1 => same (nats v1.indicator.from_.time.year) (num 2022 1)) &&
    (ok (r.weatherTrends.getItem 0) fun v1 => same (nats v1.indicator.from_.time.month) (num 2 1)) &&
    (ok (r.weatherTrends.getItem 0) fun v1 => same (nats v1.indicator.from_.time.day) (num 6 1)) &&
    (ok (r.weatherTrends.getItem 0) fun v1 => same (nats v1.indicator.from_.time.hour) (num 14 1)) &&
    (ok (r.weatherTrends.getItem 0) fun v1 => same (nats v1.indicator.from_.time.minute) (num 10 1)) &&
    (ok (r.weatherTrends.getItem 0) fun v1 => same (nats v1.indicator.until_.time.year) (num 2022 1)) &&
    (ok (r.weatherTrends.getItem 0) fun v1 => same (nats v1.indicator.until_.time.month) (num 2 1)) &&
    (ok (r.weatherTrends.getItem 0) fun v1 => same (nats v1.indicator.until_.time.day) (num 6 1)) &&
    (ok (r.weatherTrends.getItem 0) fun v1 => same (nats v1.indicator.until_.time.hour) (num 15 1)) &&
    (ok (r.weatherTrends.getItem 0) fun v1 => same (nats v1.indicator.until_.time.minute) (num 50 1)) &&
    (ok (r.weatherTrends.getItem 0) fun v1 => v1.indicator.at_.isNone) &&
    (ok (r.weatherTrends.getItem 0) fun v1 => same v1.indicator.dict (.dict [(py!"at", .none), (py!"code", .str py!"BECMG FM1410"), (py!"forecast_period", .dict [(py!"end", .dict [(py!"code", .none), (py!"datetime", .str py!"2022-02-06 15:50:00")]), (py!"init", .dict [(py!"code", .none), (py!"datetime", .str py!"2022-02-06 13:50:00")])]), (py!"from_", .dict [(py!"code", .str py!"FM1410"), (py!"datetime", .str py!"2022-02-06 14:10:00")]), (py!"translation", .str py!"becoming"), (py!"until", .dict [(py!"code", .none), (py!"datetime", .str py!"2022-02-06 15:50:00")])])) &&
    (raises (r.weatherTrends.getItem 1) .index)) = true := by decide +kernel

/-! `test_weather_trend_code_tempo_with_from_and_until_periods` (tests/metar/test_weather_trend_indicator.py 191-233) -/

example : ok (Metar.new testDb testClock
    py!"METAR KRWV 062335Z 00000KT 10SM SCT015 14/02 A3018 TEMPO FM0000 TL0100 BKN015 RMK AO2 T01380018"
    ⟨some 2022, some 2, false⟩) (fun r =>
    (same (ostrs (r.weatherTrends.list.map (·.code))) (.list [.str py!"TEMPO FM0000 TL0100 BKN015"])) &&
    (same (.str (trendsStr r.weatherTrends)) (.str py!"temporary from 2022-02-07 00:00:00 until 2022-02-07 01:00:00\nbroken at 1500.0 feet")) &&
    (ok (r.weatherTrends.getItem 0) fun v1 => same (.ofStr v1.code) (.str py!"TEMPO FM0000 TL0100 BKN015")) &&
    (ok (r.weatherTrends.getItem 0) fun v1 => same (.ofStr v1.indicator.code) (.str py!"TEMPO FM0000 TL0100")) &&
    (ok (r.weatherTrends.getItem 0) fun v1 => same (.ofStr v1.indicator.translation) (.str py!"temporary")) &&
    (ok (r.weatherTrends.getItem 0) fun v1 => same (nats v1.indicator.from_.time.year) (num 2022 1)) &&
    (ok (r.weatherTrends.getItem 0) fun v1 => same (nats v1.indicator.from_.time.month) (num 2 1)) &&
    (ok (r.weatherTrends.getItem 0) fun v1 => same (nats v1.indicator.from_.time.day) (num 7 1)) &&
    (ok (r.weatherTrends.getItem 0) fun v1 => same (nats v1.indicator.from_.time.hour) (num 0 1)) &&
    (ok (r.weatherTrends.getItem 0) fun v1 => same (nats v1.indicator.from_.time.minute) (num 0 1)) &&
    (ok (r.weatherTrends.getItem 0) fun v1 => same (nats v1.indicator.until_.time.year) (num 2022 1)) &&
    (ok (r.weatherTrends.getItem 0) fun v1 => same (nats v1.indicator.until_.time.month) (num 2 1)) &&
    (ok (r.weatherTrends.getItem 0) fun v1 => same (nats v1.indicator.until_.time.day) (num 7 1)) &&
    (ok (r.weatherTrends.getItem 0) fun v1 => same (nats v1.indicator.until_.time.hour) (num 1 1)) &&
    (ok (r.weatherTrends.getItem 0) fun v1 => same (nats v1.indicator.until_.time.minute) (num 0 1)) &&
    (ok (r.weatherTrends.getItem 0) fun v1 => v1.indicator.at_.isNone) &&
    (ok (r.weatherTrends.getItem 0) fun v1 => same v1.indicator.dict (.dict [(py!"at", .none), (py!"code", .str py!"TEMPO FM0000 TL0100"), (py!"forecast_period", .dict [(py!"end", .dict [(py!"code", .none), (py!"datetime", .str py!"2022-02-07 01:35:00")]), (py!"init", .dict [(py!"code", .none), (py!"datetime", .str py!"2022-02-06 23:35:00")])]), (py!"from_", .dict [(py!"code", .str py!"FM0000"), (py!"datetime", .str py!"2022-02-07 00:00:00")]), (py!"translation", .str py!"temporary"), (py!"until", .dict [(py!"code", .str py!"TL0100"), (py!"datetime", .str py!"2022-02-07 01:00:00")])])) &&
    (raises (r.weatherTrends.getItem 1) .index)) = true := by decide +kernel

/-! `test_weather_trend_code_becmg_with_at_period` (tests/metar/test_weather_trend_indicator.py 236-282) -/

example : ok (Metar.new testDb testClock
    py!"METAR LFPB 070000Z 28008KT 260V320 9999 SCT030 SCT039 BKN047 09/05 Q1017 BECMG AT0030 25020G30KT"
    ⟨some 2022, some 2, false⟩) (fun r =>
    (same (ostrs (r.weatherTrends.list.map (·.code))) (.list [.str py!"BECMG AT0030 25020G30KT"])) &&
    (same (.str (trendsStr r.weatherTrends)) (.str py!"becoming at 2022-02-07 00:30:00\nWSW (250.0°) 20.0 kt gust of 30.0 kt")) &&
    (ok (r.weatherTrends.getItem 0) fun v1 => same (.ofStr v1.code) (.str py!"BECMG AT0030 25020G30KT")) &&
    (ok (r.weatherTrends.getItem 0) fun v1 => same (.ofStr v1.indicator.code) (.str py!"BECMG AT0030")) &&
    (ok (r.weatherTrends.getItem 0) fun v1 => same (.ofStr v1.indicator.translation) (.str py!"becoming")) &&
    (ok (r.weatherTrends.getItem 0) fun v1 => same (nats v1.indicator.from_.time.year) (num 2022 1)) &&
    (ok (r.weatherTrends.getItem 0) fun v1 => same (nats v1.indicator.from_.time.month) (num 2 1)) &&
    (ok (r.weatherTrends.getItem 0) fun v1 => same (nats v1.indicator.from_.time.day) (num 7 1)) &&
    (ok (r.weatherTrends.getItem 0) fun v1 => same (nats v1.indicator.from_.time.hour) (num 0 1)) &&
    (ok (r.weatherTrends.getItem 0) fun v1 => same (nats v1.indicator.from_.time.minute) (num 0 1)) &&
    (ok (r.weatherTrends.getItem 0) fun v1 => same (nats v1.indicator.until_.time.year) (num 2022 1)) &&
    (ok (r.weatherTrends.getItem 0) fun v1 => same (nats v1.indicator.until_.time.month) (num 2 1)) &&
    (ok (r.weatherTrends.getItem 0) fun v1 => same (nats v1.indicator.until_.time.day) (num 7 1)) &&
    (ok (r.weatherTrends.getItem 0) fun v1 => same (nats v1.indicator.until_.time.hour) (num 2 1)) &&
    (ok (r.weatherTrends.getItem 0) fun v1 => same (nats v1.indicator.until_.time.minute) (num 0 1)) &&
    (ok (r.weatherTrends.getItem 0) fun v1 => ok (present v1.indicator.at_) fun v2 => same (nats v2.time.year) (num 2022 1)) &&
    (ok (r.weatherTrends.getItem 0) fun v1 => ok (present v1.indicator.at_) fun v3 => same (nats v3.time.month) (num 2 1)) &&
    (ok (r.weatherTrends.getItem 0) fun v1 => ok (present v1.indicator.at_) fun v4 => same (nats v4.time.day) (num 7 1)) &&
    (ok (r.weatherTrends.getItem 0) fun v1 => ok (present v1.indicator.at_) fun v5 => same (nats v5.time.hour) (num 0 1)) &&
    (ok (r.weatherTrends.getItem 0) fun v1 => ok (present v1.indicator.at_) fun v6 => same (nats v6.time.minute) (num 30 1)) &&
    (ok (r.weatherTrends.getItem 0) fun v1 => same v1.indicator.dict (.dict [(py!"at", .dict [(py!"code", .str py!"AT0030"), (py!"datetime", .str py!"2022-02-07 00:30:00")]), (py!"code", .str py!"BECMG AT0030"), (py!"forecast_period", .dict [(py!"end", .dict [(py!"code", .none), (py!"datetime", .str py!"2022-02-07 02:00:00")]), (py!"init", .dict [(py!"code", .none), (py!"datetime", .str py!"2022-02-07 00:00:00")])]), (py!"from_", .dict [(py!"code", .none), (py!"datetime", .str py!"2022-02-07 00:00:00")]), (py!"translation", .str py!"becoming"), (py!"until", .dict [(py!"code", .none), (py!"datetime", .str py!"2022-02-07 02:00:00")])])) &&
    (raises (r.weatherTrends.getItem 1) .index)) = true := by decide +kernel

/-! `test_weather_trend_with_two_changes` (tests/metar/test_weather_trend_indicator.py 285-356) -/

example : ok (Metar.new testDb testClock
    py!"METAR UNOO 150100Z 36007MPS 2100 R07/2000N -SN BLSN BKN005 BKN020 M15/M18 Q1010 R07/492045 BECMG FM0130 5000 TEMPO FM0215 TL0245 BKN010 RMK OBST OBSC QFE749"
    ⟨some 2022, some 2, false⟩) (fun r =>
    (same (ostrs (r.weatherTrends.list.map (·.code))) (.list [.str py!"BECMG FM0130 5000", .str py!"TEMPO FM0215 TL0245 BKN010"])) &&
    (same (.str (trendsStr r.weatherTrends)) (.str py!"becoming from 2022-02-15 01:30:00 until 2022-02-15 03:00:00\n5.0 km\ntemporary from 2022-02-15 02:15:00 until 2022-02-15 02:45:00\nbroken at 1000.0 feet")) &&
    (ok (r.weatherTrends.getItem 0) fun v1 => same (.ofStr v1.code) (.str py!"BECMG FM0130 5000")) &&
    (ok (r.weatherTrends.getItem 0) fun v1 => same (.ofStr v1.indicator.code) (.str py!"BECMG FM0130")) &&
    (ok (r.weatherTrends.getItem 0) fun v1 => same (.ofStr v1.indicator.translation) (.str py!"becoming")) &&
    (ok (r.weatherTrends.getItem 0) fun v1 => same (nats v1.indicator.from_.time.year) (num 2022 1)) &&
    (ok (r.weatherTrends.getItem 0) fun v1 => same (nats v1.indicator.from_.time.month) (num 2 1)) &&
    (ok (r.weatherTrends.getItem 0) fun v1 => same (nats v1.indicator.from_.time.day) (num 15 1)) &&
    (ok (r.weatherTrends.getItem 0) fun v1 => same (nats v1.indicator.from_.time.hour) (num 1 1)) &&
    (ok (r.weatherTrends.getItem 0) fun v1 => same (nats v1.indicator.from_.time.minute) (num 30 1)) &&
    (ok (r.weatherTrends.getItem 0) fun v1 => same (nats v1.indicator.until_.time.year) (num 2022 1)) &&
    (ok (r.weatherTrends.getItem 0) fun v1 => same (nats v1.indicator.until_.time.month) (num 2 1)) &&
    (ok (r.weatherTrends.getItem 0) fun v1 => same (nats v1.indicator.until_.time.day) (num 15 1)) &&
    (ok (r.weatherTrends.getItem 0) fun v1 => same (nats v1.indicator.until_.time.hour) (num 3 1)) &&
    (ok (r.weatherTrends.getItem 0) fun v1 => same (nats v1.indicator.until_.time.minute) (num 0 1)) &&
    (ok (r.weatherTrends.getItem 0) fun v1 => v1.indicator.at_.isNone) &&
    (ok (r.weatherTrends.getItem 0) fun v1 => same v1.indicator.dict (.dict [(py!"at", .none), (py!"code", .str py!"BECMG FM0130"), (py!"forecast_period", .dict [(py!"end", .dict [(py!"code", .none), (py!"datetime", .str py!"2022-02-15 03:00:00")]), (py!"init", .dict [(py!"code", .none), (py!"datetime", .str py!"2022-02-15 01:00:00")])]), (py!"from_", .dict [(py!"code", .str py!"FM0130"), (py!"datetime", .str py!"2022-02-15 01:30:00")]), (py!"translation", .str py!"becoming"), (py!"until", .dict [(py!"code", .none), (py!"datetime", .str py!"2022-02-15 03:00:00")])])) &&
    (ok (r.weatherTrends.getItem 1) fun v2 => same (.ofStr v2.code) (.str py!"TEMPO FM0215 TL0245 BKN010")) &&
    (ok (r.weatherTrends.getItem 1) fun v2 => same (.ofStr v2.indicator.code) (.str py!"TEMPO FM0215 TL0245")) &&
    (ok (r.weatherTrends.getItem 1) fun v2 => same (.ofStr v2.indicator.translation) (.str py!"temporary")) &&
    (ok (r.weatherTrends.getItem 1) fun v2 => same (nats v2.indicator.from_.time.year) (num 2022 1)) &&
    (ok (r.weatherTrends.getItem 1) fun v2 => same (nats v2.indicator.from_.time.month) (num 2 1)) &&
    (ok (r.weatherTrends.getItem 1) fun v2 => same (nats v2.indicator.from_.time.day) (num 15 1)) &&
    (ok (r.weatherTrends.getItem 1) fun v2 => same (nats v2.indicator.from_.time.hour) (num 2 1)) &&
    (ok (r.weatherTrends.getItem 1) fun v2 => same (nats v2.indicator.from_.time.minute) (num 15 1)) &&
    (ok (r.weatherTrends.getItem 1) fun v2 => same (nats v2.indicator.until_.time.year) (num 2022 1)) &&
    (ok (r.weatherTrends.getItem 1) fun v2 => same (nats v2.indicator.until_.time.month) (num 2 1)) &&
    (ok (r.weatherTrends.getItem 1) fun v2 => same (nats v2.indicator.until_.time.day) (num 15 1)) &&
    (ok (r.weatherTrends.getItem 1) fun v2 => same (nats v2.indicator.until_.time.hour) (num 2 1)) &&
    (ok (r.weatherTrends.getItem 1) fun v2 => same (nats v2.indicator.until_.time.minute) (num 45 1)) &&
    (ok (r.weatherTrends.getItem 1) fun v2 => v2.indicator.at_.isNone) &&
    (ok (r.weatherTrends.getItem 1) fun v2 => same v2.indicator.dict (.dict [(py!"at", .none), (py!"code", .str py!"TEMPO FM0215 TL0245"), (py!"forecast_period", .dict [(py!"end", .dict [(py!"code", .none), (py!"datetime", .str py!"2022-02-15 03:00:00")]), (py!"init", .dict [(py!"code", .none), (py!"datetime", .str py!"2022-02-15 01:00:00")])]), (py!"from_", .dict [(py!"code", .str py!"FM0215"), (py!"datetime", .str py!"2022-02-15 02:15:00")]), (py!"translation", .str py!"temporary"), (py!"until", .dict [(py!"code", .str py!"TL0245"), (py!"datetime", .str py!"2022-02-15 02:45:00")])])) &&
    (raises (r.weatherTrends.getItem 2) .range)) = true := by decide +kernel

/-! `test_no_weather_trend` (tests/metar/test_weather_trend_indicator.py 359-372) -/

example : ok (Metar.new testDb testClock
    py!"MRLM 072200Z 02006KT CAVOK 28/21 A2986"
    ⟨some 2022, some 2, false⟩) (fun r =>
    (same (ostrs (r.weatherTrends.list.map (·.code))) (.list [])) &&
    (same (.str (trendsStr r.weatherTrends)) (.str [])) &&
    (ok (r.weatherTrends.asDict fun x => .ok (x.dict.1)) fun v1 => same v1 (.dict [])) &&
    (raises (r.weatherTrends.getItem 0) .index)) = true := by decide +kernel

end Verif.Tests
