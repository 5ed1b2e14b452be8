import Verif.Tests.Database

/-
The assertions of tests/metar/test_runway_range.py, checked of the model. Generated by tools/tests2lean.py.
-/

namespace Verif.Tests

/-! `test_runway_range` (tests/metar/test_runway_range.py 8-43) -/

example : ok (Metar.new testDb testClock
    py!"METAR SCFA 121300Z 21008KT 9999 3000W R07L/M0150V0600U TSRA FEW020 20/13 Q1014 NOSIG"
    ⟨none, none, false⟩) (fun r =>
    (same (ostrs (r.runwayRanges.list.map (·.code))) (.list [.str py!"R07L/M0150V0600U"])) &&
    (ok (r.runwayRanges.getItem 0) fun v1 => same (.ofStr v1.code) (.str py!"R07L/M0150V0600U")) &&
    (ok (r.runwayRanges.getItem 0) fun v2 => same (.ofFloat v2.low) (num 150 1)) &&
    (ok (r.runwayRanges.getItem 0) fun v3 => same (.ofFloat (inKilometers v3.low)) (num 5404319552844595 36028797018963968)) &&
    (ok (r.runwayRanges.getItem 0) fun v4 => same (.ofFloat (inSeaMiles v4.low)) (num 5836198221214465 72057594037927936)) &&
    (ok (r.runwayRanges.getItem 0) fun v5 => same (.ofFloat (inFeet v5.low)) (num 135274560503937 274877906944)) &&
    (ok (r.runwayRanges.getItem 0) fun v6 => same (.ofFloat v6.high) (num 600 1)) &&
    (ok (r.runwayRanges.getItem 0) fun v7 => same (.ofFloat (inKilometers v7.high)) (num 5404319552844595 9007199254740992)) &&
    (ok (r.runwayRanges.getItem 0) fun v8 => same (.ofFloat (inSeaMiles v8.high)) (num 5836198221214465 18014398509481984)) &&
    (ok (r.runwayRanges.getItem 0) fun v9 => same (.ofFloat (inFeet v9.high)) (num 135274560503937 68719476736)) &&
    (ok (r.runwayRanges.getItem 0) fun v10 => same (.ofStr v10.name) (.str py!"07 left")) &&
    (ok (r.runwayRanges.getItem 0) fun v11 => same (.str (range2str v11.low v11.rvrLow)) (.str py!"below of 150.0 m")) &&
    (ok (r.runwayRanges.getItem 0) fun v12 => same (.str (range2str v12.high v12.rvrHigh)) (.str py!"600.0 m")) &&
    (ok (r.runwayRanges.getItem 0) fun v13 => same (.str v13.str) (.str py!"runway 07 left below of 150.0 m varying to 600.0 m, increasing")) &&
    (ok (r.runwayRanges.getItem 0) fun v14 => same v14.dict (.dict [(py!"code", .str py!"R07L/M0150V0600U"), (py!"high_range", .dict [(py!"distance", num 600 1), (py!"units", .str py!"meters")]), (py!"low_range", .dict [(py!"distance", num 150 1), (py!"units", .str py!"meters")]), (py!"name", .str py!"07 left"), (py!"rvr_high", .none), (py!"rvr_low", .str py!"below of"), (py!"trend", .str py!"increasing")])) &&
    (raises (r.runwayRanges.getItem 1) .index)) = true := by decide +kernel

/-! `test_runway_range_no_high` (tests/metar/test_runway_range.py 46-78) -/

example : ok (Metar.new testDb testClock
    py!"METAR SCFA 121300Z 21008KT 9999 3000W R25C/P0150D TSRA FEW020 20/13 Q1014 NOSIG"
    ⟨none, none, false⟩) (fun r =>
    (same (ostrs (r.runwayRanges.list.map (·.code))) (.list [.str py!"R25C/P0150D"])) &&
    (ok (r.runwayRanges.getItem 0) fun v1 => same (.ofStr v1.code) (.str py!"R25C/P0150D")) &&
    (ok (r.runwayRanges.getItem 0) fun v2 => same (.ofFloat v2.low) (num 150 1)) &&
    (ok (r.runwayRanges.getItem 0) fun v3 => same (.ofFloat (inKilometers v3.low)) (num 5404319552844595 36028797018963968)) &&
    (ok (r.runwayRanges.getItem 0) fun v4 => same (.ofFloat (inSeaMiles v4.low)) (num 5836198221214465 72057594037927936)) &&
    (ok (r.runwayRanges.getItem 0) fun v5 => same (.ofFloat (inFeet v5.low)) (num 135274560503937 274877906944)) &&
    (ok (r.runwayRanges.getItem 0) fun v6 => same (.ofFloat v6.high) (.none)) &&
    (ok (r.runwayRanges.getItem 0) fun v7 => same (.ofFloat (inKilometers v7.high)) (.none)) &&
    (ok (r.runwayRanges.getItem 0) fun v8 => same (.ofFloat (inSeaMiles v8.high)) (.none)) &&
    (ok (r.runwayRanges.getItem 0) fun v9 => same (.ofFloat (inFeet v9.high)) (.none)) &&
    (ok (r.runwayRanges.getItem 0) fun v10 => same (.ofStr v10.name) (.str py!"25 center")) &&
    (ok (r.runwayRanges.getItem 0) fun v11 => same (.str (range2str v11.low v11.rvrLow)) (.str py!"above of 150.0 m")) &&
    (ok (r.runwayRanges.getItem 0) fun v12 => same (.str (range2str v12.high v12.rvrHigh)) (.str [])) &&
    (ok (r.runwayRanges.getItem 0) fun v13 => same (.str v13.str) (.str py!"runway 25 center above of 150.0 m, decreasing")) &&
    (ok (r.runwayRanges.getItem 0) fun v14 => same v14.dict (.dict [(py!"code", .str py!"R25C/P0150D"), (py!"high_range", .dict [(py!"distance", .none), (py!"units", .str py!"meters")]), (py!"low_range", .dict [(py!"distance", num 150 1), (py!"units", .str py!"meters")]), (py!"name", .str py!"25 center"), (py!"rvr_high", .none), (py!"rvr_low", .str py!"above of"), (py!"trend", .str py!"decreasing")])) &&
    (raises (r.runwayRanges.getItem 1) .index)) = true := by decide +kernel

/-! `test_runway_range_in_feet` (tests/metar/test_runway_range.py 81-113) -/

example : ok (Metar.new testDb testClock
    py!"SPECI KMIA 280558Z 16010G20KT 5SM R09/5000VP6000FT -RA BR SCT020 BKN035CB OVC060 26/24 A2973 RMK AO2 WSHFT 0544 LTG DSNT NW CB W-N MOV NW P0009 T02610244"
    ⟨none, none, false⟩) (fun r =>
    (same (ostrs (r.runwayRanges.list.map (·.code))) (.list [.str py!"R09/5000VP6000FT"])) &&
    (ok (r.runwayRanges.getItem 0) fun v1 => same (.ofStr v1.code) (.str py!"R09/5000VP6000FT")) &&
    (ok (r.runwayRanges.getItem 0) fun v2 => same (.ofFloat v2.low) (num 1524 1)) &&
    (ok (r.runwayRanges.getItem 0) fun v3 => same (.ofFloat (inKilometers v3.low)) (num 1715871458028159 1125899906842624)) &&
    (ok (r.runwayRanges.getItem 0) fun v4 => approx (.ofFloat (inSeaMiles v4.low)) (mkRat (3705985111765417) 4503599627370496) (mkRat (4722366482869645) 4722366482869645213696)) &&
    (ok (r.runwayRanges.getItem 0) fun v5 => approx (.ofFloat (inFeet v5.low)) (mkRat (5000) 1) (mkRat (4722366482869645) 4722366482869645213696)) &&
    (ok (r.runwayRanges.getItem 0) fun v6 => approx (.ofFloat v6.high) (mkRat (8043147459506995) 4398046511104) (mkRat (4722366482869645) 4722366482869645213696)) &&
    (ok (r.runwayRanges.getItem 0) fun v7 => approx (.ofFloat (inKilometers v7.high)) (mkRat (8236182998535163) 4503599627370496) (mkRat (4722366482869645) 4722366482869645213696)) &&
    (ok (r.runwayRanges.getItem 0) fun v8 => approx (.ofFloat (inSeaMiles v8.high)) (mkRat (2223591517419213) 2251799813685248) (mkRat (4722366482869645) 4722366482869645213696)) &&
    (ok (r.runwayRanges.getItem 0) fun v9 => approx (.ofFloat (inFeet v9.high)) (mkRat (6000) 1) (mkRat (4722366482869645) 4722366482869645213696)) &&
    (ok (r.runwayRanges.getItem 0) fun v10 => same (.ofStr v10.name) (.str py!"09")) &&
    (ok (r.runwayRanges.getItem 0) fun v11 => same (.str (range2str v11.low v11.rvrLow)) (.str py!"1524.0 m")) &&
    (ok (r.runwayRanges.getItem 0) fun v12 => same (.str (range2str v12.high v12.rvrHigh)) (.str py!"above of 1828.8 m")) &&
    (ok (r.runwayRanges.getItem 0) fun v13 => same (.str v13.str) (.str py!"runway 09 1524.0 m varying to above of 1828.8 m")) &&
    (ok (r.runwayRanges.getItem 0) fun v14 => same v14.dict (.dict [(py!"code", .str py!"R09/5000VP6000FT"), (py!"high_range", .dict [(py!"distance", num 2010786864876749 1099511627776), (py!"units", .str py!"meters")]), (py!"low_range", .dict [(py!"distance", num 1524 1), (py!"units", .str py!"meters")]), (py!"name", .str py!"09"), (py!"rvr_high", .str py!"above of"), (py!"rvr_low", .none), (py!"trend", .none)])) &&
    (raises (r.runwayRanges.getItem 1) .index)) = true := by decide +kernel

/-! `test_two_runway_ranges` (tests/metar/test_runway_range.py 116-170) -/

example : ok (Metar.new testDb testClock
    py!"METAR SCFA 121300Z 21008KT 9999 3000W R07L/M0150V0600U R25C/P0150D TSRA FEW020 20/13 Q1014 NOSIG"
    ⟨none, none, false⟩) (fun r =>
    (same (ostrs (r.runwayRanges.list.map (·.code))) (.list [.str py!"R07L/M0150V0600U", .str py!"R25C/P0150D"])) &&
    (ok (r.runwayRanges.getItem 0) fun v1 => same (.ofStr v1.code) (.str py!"R07L/M0150V0600U")) &&
    (ok (r.runwayRanges.getItem 0) fun v2 => same (.ofFloat v2.low) (num 150 1)) &&
    (ok (r.runwayRanges.getItem 0) fun v3 => same (.ofFloat (inKilometers v3.low)) (num 5404319552844595 36028797018963968)) &&
    (ok (r.runwayRanges.getItem 0) fun v4 => same (.ofFloat (inSeaMiles v4.low)) (num 5836198221214465 72057594037927936)) &&
    (ok (r.runwayRanges.getItem 0) fun v5 => same (.ofFloat v5.high) (num 600 1)) &&
    (ok (r.runwayRanges.getItem 0) fun v6 => same (.ofFloat (inKilometers v6.high)) (num 5404319552844595 9007199254740992)) &&
    (ok (r.runwayRanges.getItem 0) fun v7 => same (.ofFloat (inSeaMiles v7.high)) (num 5836198221214465 18014398509481984)) &&
    (ok (r.runwayRanges.getItem 0) fun v8 => same (.ofStr v8.name) (.str py!"07 left")) &&
    (ok (r.runwayRanges.getItem 0) fun v9 => same (.str (range2str v9.low v9.rvrLow)) (.str py!"below of 150.0 m")) &&
    (ok (r.runwayRanges.getItem 0) fun v10 => same (.str (range2str v10.high v10.rvrHigh)) (.str py!"600.0 m")) &&
    (ok (r.runwayRanges.getItem 0) fun v11 => same (.str v11.str) (.str py!"runway 07 left below of 150.0 m varying to 600.0 m, increasing")) &&
    (ok (r.runwayRanges.getItem 0) fun v12 => same v12.dict (.dict [(py!"code", .str py!"R07L/M0150V0600U"), (py!"high_range", .dict [(py!"distance", num 600 1), (py!"units", .str py!"meters")]), (py!"low_range", .dict [(py!"distance", num 150 1), (py!"units", .str py!"meters")]), (py!"name", .str py!"07 left"), (py!"rvr_high", .none), (py!"rvr_low", .str py!"below of"), (py!"trend", .str py!"increasing")])) &&
    (ok (r.runwayRanges.getItem 1) fun v13 => same (.ofStr v13.code) (.str py!"R25C/P0150D")) &&
    (ok (r.runwayRanges.getItem 1) fun v14 => same (.ofFloat v14.low) (num 150 1)) &&
    (ok (r.runwayRanges.getItem 1) fun v15 => same (.ofFloat (inKilometers v15.low)) (num 5404319552844595 36028797018963968)) &&
    (ok (r.runwayRanges.getItem 1) fun v16 => same (.ofFloat (inSeaMiles v16.low)) (num 5836198221214465 72057594037927936)) &&
    (ok (r.runwayRanges.getItem 1) fun v17 => same (.ofFloat v17.high) (.none)) &&
    (ok (r.runwayRanges.getItem 1) fun v18 => same (.ofFloat (inKilometers v18.high)) (.none)) &&
    (ok (r.runwayRanges.getItem 1) fun v19 => same (.ofFloat (inSeaMiles v19.high)) (.none)) &&
    (ok (r.runwayRanges.getItem 1) fun v20 => same (.ofStr v20.name) (.str py!"25 center")) &&
    (ok (r.runwayRanges.getItem 1) fun v21 => same (.str (range2str v21.low v21.rvrLow)) (.str py!"above of 150.0 m")) &&
    (ok (r.runwayRanges.getItem 1) fun v22 => same (.str (range2str v22.high v22.rvrHigh)) (.str [])) &&
    (ok (r.runwayRanges.getItem 1) fun v23 => same (.str v23.str) (.str py!"runway 25 center above of 150.0 m, decreasing")) &&
    (ok (r.runwayRanges.getItem 1) fun v24 => same v24.dict (.dict [(py!"code", .str py!"R25C/P0150D"), (py!"high_range", .dict [(py!"distance", .none), (py!"units", .str py!"meters")]), (py!"low_range", .dict [(py!"distance", num 150 1), (py!"units", .str py!"meters")]), (py!"name", .str py!"25 center"), (py!"rvr_high", .none), (py!"rvr_low", .str py!"above of"), (py!"trend", .str py!"decreasing")])) &&
    (raises (r.runwayRanges.getItem 2) .index)) = true := by decide +kernel

/-! `test_no_runway_range` (tests/metar/test_runway_range.py 173-183) -/

example : ok (Metar.new testDb testClock
    py!"METAR SCFA 121300Z 21008KT 9999 3000W TSRA FEW020 20/13 Q1014 NOSIG"
    ⟨none, none, false⟩) (fun r =>
    (same (ostrs (r.runwayRanges.list.map (·.code))) (.list [])) &&
    (same (.str (r.runwayRanges.str fun x => x.str)) (.str [])) &&
    (ok (r.runwayRanges.asDict fun x => .ok (x.dict)) fun v1 => same v1 (.dict [])) &&
    (raises (r.runwayRanges.getItem 0) .index) &&
    (raises (r.runwayRanges.getItem 1) .index) &&
    (raises (r.runwayRanges.getItem 2) .index)) = true := by decide +kernel

/-! `test_try_to_get_item_4` (tests/metar/test_runway_range.py 186-229) -/

example : ok (Metar.new testDb testClock
    py!"METAR SCFA 121300Z 21008KT 9999 3000W R07L/M0150V0600U R25C/P0150D R25L/P0500N TSRA FEW020 20/13 Q1014 NOSIG"
    ⟨none, none, false⟩) (fun r =>
    (same (ostrs (r.runwayRanges.list.map (·.code))) (.list [.str py!"R07L/M0150V0600U", .str py!"R25C/P0150D", .str py!"R25L/P0500N"])) &&
    (same (.str (r.runwayRanges.str fun x => x.str)) (.str py!"runway 07 left below of 150.0 m varying to 600.0 m, increasing | runway 25 center above of 150.0 m, decreasing | runway 25 left above of 500.0 m, no change")) &&
    (ok (r.runwayRanges.asDict fun x => .ok (x.dict)) fun v1 => same v1 (.dict [(py!"first", .dict [(py!"code", .str py!"R07L/M0150V0600U"), (py!"high_range", .dict [(py!"distance", num 600 1), (py!"units", .str py!"meters")]), (py!"low_range", .dict [(py!"distance", num 150 1), (py!"units", .str py!"meters")]), (py!"name", .str py!"07 left"), (py!"rvr_high", .none), (py!"rvr_low", .str py!"below of"), (py!"trend", .str py!"increasing")]), (py!"second", .dict [(py!"code", .str py!"R25C/P0150D"), (py!"high_range", .dict [(py!"distance", .none), (py!"units", .str py!"meters")]), (py!"low_range", .dict [(py!"distance", num 150 1), (py!"units", .str py!"meters")]), (py!"name", .str py!"25 center"), (py!"rvr_high", .none), (py!"rvr_low", .str py!"above of"), (py!"trend", .str py!"decreasing")]), (py!"third", .dict [(py!"code", .str py!"R25L/P0500N"), (py!"high_range", .dict [(py!"distance", .none), (py!"units", .str py!"meters")]), (py!"low_range", .dict [(py!"distance", num 500 1), (py!"units", .str py!"meters")]), (py!"name", .str py!"25 left"), (py!"rvr_high", .none), (py!"rvr_low", .str py!"above of"), (py!"trend", .str py!"no change")])])) &&
    (raises (r.runwayRanges.getItem 3) .range)) = true := by decide +kernel

end Verif.Tests
