import Verif.Tests.Database

/-
The assertions of tests/metar/test_flight_rules.py, checked of the model. Generated by tools/tests2lean.py.
-/

namespace Verif.Tests

/-! `test_vfr` (tests/metar/test_flight_rules.py 4-15) -/

example : ok (Metar.new testDb testClock
    py!"METAR MROC 202000Z 25011KT 210V290 9999 FEW025TCU SCT040 BKN250 29/20 A2992 NOSIG"
    ⟨none, none, false⟩) (fun r =>
    (same (.ofStr (r.core.flightRules)) (.str py!"VFR"))) = true := by decide +kernel

example : ok (Metar.new testDb testClock
    py!"METAR DXNG 010000Z 22004KT CAVOK 26/22 Q1010"
    ⟨none, none, false⟩) (fun r =>
    (same (.ofStr (r.core.flightRules)) (.str py!"VFR"))) = true := by decide +kernel

example : ok (Metar.new testDb testClock
    py!"METAR MNMG 151700Z 11014KT 9999 FEW025 SCT300 33/19 Q1010 A2984 NOSIG"
    ⟨none, none, false⟩) (fun r =>
    (same (.ofStr (r.core.flightRules)) (.str py!"VFR"))) = true := by decide +kernel

example : ok (Metar.new testDb testClock
    py!"METAR MPTO 272200Z 14009KT 9000 SCT018 31/22 Q1005 NOSIG RMK HZY"
    ⟨none, none, false⟩) (fun r =>
    (same (.ofStr (r.core.flightRules)) (.str py!"VFR"))) = true := by decide +kernel

example : ok (Metar.new testDb testClock
    py!"SPECI MSSS 101450Z 04003KT 9999 FEW030 27/18 Q1015 A2998"
    ⟨none, none, false⟩) (fun r =>
    (same (.ofStr (r.core.flightRules)) (.str py!"VFR"))) = true := by decide +kernel

/-! `test_mvfr` (tests/metar/test_flight_rules.py 18-29) -/

example : ok (Metar.new testDb testClock
    py!"METAR UUDD 200900Z 16005MPS 9999 BKN025 01/M06 Q1010 R14R/CLRD60 R14C/190050 NOSIG"
    ⟨none, none, false⟩) (fun r =>
    (same (.ofStr (r.core.flightRules)) (.str py!"MVFR"))) = true := by decide +kernel

example : ok (Metar.new testDb testClock
    py!"METAR MGGT 260900Z 21008KT 9000 BKN014 17/15 Q1017 A3003"
    ⟨none, none, false⟩) (fun r =>
    (same (.ofStr (r.core.flightRules)) (.str py!"MVFR"))) = true := by decide +kernel

example : ok (Metar.new testDb testClock
    py!"SPECI MMMX 151942Z 10015KT 4SM SCT250 29/M06 A3009 NOSIG RMK 8/001 HZY BLDU"
    ⟨none, none, false⟩) (fun r =>
    (same (.ofStr (r.core.flightRules)) (.str py!"MVFR"))) = true := by decide +kernel

example : ok (Metar.new testDb testClock
    py!"SPECI KJFK 010751Z 29010KT 5SM RA BR FEW002 BKN018 OVC075 13/13 A2947 RMK AO2 RAB25 SLP978 P0006 T01330128"
    ⟨none, none, false⟩) (fun r =>
    (same (.ofStr (r.core.flightRules)) (.str py!"MVFR"))) = true := by decide +kernel

example : ok (Metar.new testDb testClock
    py!"METAR SKBO 050800Z 03003KT 9999 BKN010 09/09 Q1025 NOSIG RMK A3028"
    ⟨none, none, false⟩) (fun r =>
    (same (.ofStr (r.core.flightRules)) (.str py!"MVFR"))) = true := by decide +kernel

/-! `test_ifr` (tests/metar/test_flight_rules.py 32-43) -/

example : ok (Metar.new testDb testClock
    py!"METAR KBOS 011254Z 30022G35KT 1 1/2SM +RA SCT011 OVC019 12/09 A2947 RMK AO2 PK WND 30035/1251 TWR VIS 3 RAB31 SLP980 T01220094 PNO"
    ⟨none, none, false⟩) (fun r =>
    (same (.ofStr (r.core.flightRules)) (.str py!"IFR"))) = true := by decide +kernel

example : ok (Metar.new testDb testClock
    py!"METAR MROC 162100Z 25012KT 3000 TSRA BKN008CB SCT040 26/20 A2990 NOSIG"
    ⟨none, none, false⟩) (fun r =>
    (same (.ofStr (r.core.flightRules)) (.str py!"IFR"))) = true := by decide +kernel

example : ok (Metar.new testDb testClock
    py!"METAR MHTG 011700Z 36006KT 4000 HZ NSC 28/16 Q1020 A3012 NOSIG"
    ⟨none, none, false⟩) (fun r =>
    (same (.ofStr (r.core.flightRules)) (.str py!"IFR"))) = true := by decide +kernel

example : ok (Metar.new testDb testClock
    py!"METAR KCLE 111502Z 28016KT 2 1/2SM -SN BKN006 BKN028 OVC042 02/M02 A2983 RMK AO2 P0000 T00171022"
    ⟨none, none, false⟩) (fun r =>
    (same (.ofStr (r.core.flightRules)) (.str py!"IFR"))) = true := by decide +kernel

example : ok (Metar.new testDb testClock
    py!"METAR MSSS 222150Z 17012KT 2000 BR VV007 28/22 Q1011 A2988"
    ⟨none, none, false⟩) (fun r =>
    (same (.ofStr (r.core.flightRules)) (.str py!"IFR"))) = true := by decide +kernel

/-! `test_lifr` (tests/metar/test_flight_rules.py 46-57) -/

example : ok (Metar.new testDb testClock
    py!"METAR GOOK 211800Z 36004KT 1000 BR VV/// 40/12 Q1006"
    ⟨none, none, false⟩) (fun r =>
    (same (.ofStr (r.core.flightRules)) (.str py!"LIFR"))) = true := by decide +kernel

example : ok (Metar.new testDb testClock
    py!"METAR SAVC 032200Z 29015KT 0800 FG NSC 24/M02 Q1006 RMK PP000"
    ⟨none, none, false⟩) (fun r =>
    (same (.ofStr (r.core.flightRules)) (.str py!"LIFR"))) = true := by decide +kernel

example : ok (Metar.new testDb testClock
    py!"METAR CYQM 122240Z 33007KT 1 1/4SM +RA BR BKN003 OVC015 04/03 A2925 RMK SF7SC1 PRESRR SLP909"
    ⟨none, none, false⟩) (fun r =>
    (same (.ofStr (r.core.flightRules)) (.str py!"LIFR"))) = true := by decide +kernel

example : ok (Metar.new testDb testClock
    py!"METAR CZSM 011800Z AUTO 33007KT 3/4SM HZ SCT030 BKN100 M15/M22 RMK AO1 SOG 57 8002 SLP208 T11471219"
    ⟨none, none, false⟩) (fun r =>
    (same (.ofStr (r.core.flightRules)) (.str py!"LIFR"))) = true := by decide +kernel

example : ok (Metar.new testDb testClock
    py!"METAR SPJC 202100Z 18011KT 1500 TSRA SCT010CB BKN035 21/15 Q1011 NOSIG RMK PP000"
    ⟨none, none, false⟩) (fun r =>
    (same (.ofStr (r.core.flightRules)) (.str py!"LIFR"))) = true := by decide +kernel

/-! `test_vlifr` (tests/metar/test_flight_rules.py 60-71) -/

example : ok (Metar.new testDb testClock
    py!"METAR KJFK 250451Z 17010KT 1/8SM R04R/4000VP6000FT -RA BR BKN002 OVC025 11/11 A2949 RMK AO2 PK WND 18027/0408 SFC VIS 2 1/2 SLP986 P0000 T01110111 401390067"
    ⟨none, none, false⟩) (fun r =>
    (same (.ofStr (r.core.flightRules)) (.str py!"VLIFR"))) = true := by decide +kernel

example : ok (Metar.new testDb testClock
    py!"METAR MMPR 011844Z 26008KT 1/4SM SN SCT050 BKN100 24/16 A2994 RMK 8/501"
    ⟨none, none, false⟩) (fun r =>
    (same (.ofStr (r.core.flightRules)) (.str py!"VLIFR"))) = true := by decide +kernel

example : ok (Metar.new testDb testClock
    py!"METAR MRLM 152100Z 06008KT 1500 TSRA OVC001CB 21/21 A2978"
    ⟨none, none, false⟩) (fun r =>
    (same (.ofStr (r.core.flightRules)) (.str py!"VLIFR"))) = true := by decide +kernel

example : ok (Metar.new testDb testClock
    py!"METAR TUPJ 032200Z 10013KT 2SM BR VV001 22/21 A3002 RMK Q1017 VIS16KM"
    ⟨none, none, false⟩) (fun r =>
    (same (.ofStr (r.core.flightRules)) (.str py!"VLIFR"))) = true := by decide +kernel

example : ok (Metar.new testDb testClock
    py!"METAR SKCG 012200Z 29006KT 260V330 0500 FG OVC003 28/24 Q1008 RMK A2979"
    ⟨none, none, false⟩) (fun r =>
    (same (.ofStr (r.core.flightRules)) (.str py!"VLIFR"))) = true := by decide +kernel

/-! `test_trend_vfr` (tests/metar/test_flight_rules.py 74-85) -/

example : ok (Metar.new testDb testClock
    py!"METAR KJFK 250451Z 17010KT 1/8SM R04R/4000VP6000FT -RA BR BKN002 OVC025 11/11 A2949 "
    ⟨none, none, false⟩) (fun r =>
    (same (.ofStr (r.core.flightRules)) (.str py!"VLIFR"))) = true := by decide +kernel

example : ok (Metar.new testDb testClock
    py!"METAR MMPR 011844Z 26008KT 1/4SM SN SCT050 BKN100 24/16 A2994 RMK 8/501"
    ⟨none, none, false⟩) (fun r =>
    (same (.ofStr (r.core.flightRules)) (.str py!"VLIFR"))) = true := by decide +kernel

example : ok (Metar.new testDb testClock
    py!"METAR MRLM 152100Z 06008KT 1500 TSRA OVC001CB 21/21 A2978"
    ⟨none, none, false⟩) (fun r =>
    (same (.ofStr (r.core.flightRules)) (.str py!"VLIFR"))) = true := by decide +kernel

example : ok (Metar.new testDb testClock
    py!"METAR TUPJ 032200Z 10013KT 2SM BR VV001 22/21 A3002 RMK Q1017 VIS16KM"
    ⟨none, none, false⟩) (fun r =>
    (same (.ofStr (r.core.flightRules)) (.str py!"VLIFR"))) = true := by decide +kernel

example : ok (Metar.new testDb testClock
    py!"METAR SKCG 012200Z 29006KT 260V330 0500 FG OVC003 28/24 Q1008 RMK A2979"
    ⟨none, none, false⟩) (fun r =>
    (same (.ofStr (r.core.flightRules)) (.str py!"VLIFR"))) = true := by decide +kernel

/-! `test_no_data_to_set_flight_rules` (tests/metar/test_flight_rules.py 88-96) -/

example : ok (Metar.new testDb testClock
    py!"METAR MRLM 152100Z 06008KT //// TSRA OVC///CB 21/21 A2978"
    ⟨none, none, false⟩) (fun r =>
    (same (.ofStr (r.core.flightRules)) (.none))) = true := by decide +kernel

example : ok (Metar.new testDb testClock
    py!"METAR TUPJ 032200Z AUTO 10013KT //// BR VV/// 22/21 A3002 RMK Q1017 VIS16KM"
    ⟨none, none, false⟩) (fun r =>
    (same (.ofStr (r.core.flightRules)) (.none))) = true := by decide +kernel

/-! `test_trend_flight_rules_nosig` (tests/metar/test_flight_rules.py 99-103) -/

example : ok (Metar.new testDb testClock
    py!"SPECI MROC 062121Z VRB02KT 9999 3000SW -RA VCTS FEW020CB SCT035 BKN100 19/19 A2996 RETS NOSIG"
    ⟨none, none, false⟩) (fun r =>
    (ok (r.weatherTrends.getItem 0) fun v1 => same (.ofStr (v1.core.flightRules)) (.none))) = true := by decide +kernel

end Verif.Tests
