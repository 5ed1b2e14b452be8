import Verif.Tests.Database

/-
The assertions of tests/metar/test_sections.py, checked of the model. Generated by tools/tests2lean.py.
-/

namespace Verif.Tests

/-! `test_sections_weather_trend_nosig` (tests/metar/test_sections.py 6-17) -/

example : ok (Metar.new testDb testClock
    py!"\t\t\tMETAR MROC 181500Z 09012G23KT 050V110 9999 FEW035 SCT130 BKN200 27/18 A3004 RMK TS TO S NOSIG\n\n"
    ⟨none, none, false⟩) (fun r =>
    (same (strs r.sections) (.list [.str py!"METAR MROC 181500Z 09012G23KT 050V110 9999 FEW035 SCT130 BKN200 27/18 A3004", .str py!"NOSIG", .str py!"RMK TS TO S"])) &&
    (same (.str r.body) (.str py!"METAR MROC 181500Z 09012G23KT 050V110 9999 FEW035 SCT130 BKN200 27/18 A3004")) &&
    (same (.str r.trend) (.str py!"NOSIG")) &&
    (same (.str r.remark) (.str py!"RMK TS TO S"))) = true := by decide +kernel

/-! `test_sections_weather_trend_tempo` (tests/metar/test_sections.py 20-31) -/

example : ok (Metar.new testDb testClock
    py!"\t\t\tMETAR MMTJ 180842Z 12006KT 7SM SKC 11/M04 A3027\tTEMPO 25005KT 5SM HZ\tRMK SLP258 54000 941\n\n"
    ⟨none, none, false⟩) (fun r =>
    (same (strs r.sections) (.list [.str py!"METAR MMTJ 180842Z 12006KT 7SM SKC 11/M04 A3027", .str py!"TEMPO 25005KT 5SM HZ", .str py!"RMK SLP258 54000 941"])) &&
    (same (.str r.body) (.str py!"METAR MMTJ 180842Z 12006KT 7SM SKC 11/M04 A3027")) &&
    (same (.str r.trend) (.str py!"TEMPO 25005KT 5SM HZ")) &&
    (same (.str r.remark) (.str py!"RMK SLP258 54000 941"))) = true := by decide +kernel

/-! `test_sections_two_weather_trends` (tests/metar/test_sections.py 34-45) -/

example : ok (Metar.new testDb testClock
    py!"\t\t\tSPECI LTBG 181003Z VRB02KT 9999 -SHRA BKN030 BKN100 09/09 Q1013 RESHRA\nBECMG TL1045 RA TEMPO FM1100 DZ RMK RWY18 04006KT 360V070\n\n"
    ⟨none, none, false⟩) (fun r =>
    (same (strs r.sections) (.list [.str py!"SPECI LTBG 181003Z VRB02KT 9999 -SHRA BKN030 BKN100 09/09 Q1013 RESHRA", .str py!"BECMG TL1045 RA TEMPO FM1100 DZ", .str py!"RMK RWY18 04006KT 360V070"])) &&
    (same (.str r.body) (.str py!"SPECI LTBG 181003Z VRB02KT 9999 -SHRA BKN030 BKN100 09/09 Q1013 RESHRA")) &&
    (same (.str r.trend) (.str py!"BECMG TL1045 RA TEMPO FM1100 DZ")) &&
    (same (.str r.remark) (.str py!"RMK RWY18 04006KT 360V070"))) = true := by decide +kernel

end Verif.Tests
