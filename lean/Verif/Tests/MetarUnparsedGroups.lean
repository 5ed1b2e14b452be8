import Verif.Tests.Database

/-
The assertions of tests/metar/test_unparsed_groups.py, checked of the model. Generated by tools/tests2lean.py.
-/

namespace Verif.Tests

/-! `test_unparsed_groups` (tests/metar/test_unparsed_groups.py 30-34) -/

example : ok (Metar.new testDb testClock
    py!"METAR MRLM 141200Z 000O0KT 9999 SCT0320 BKN080 22/21 A2990"
    ⟨none, none, false⟩) (fun r =>
    (same (strs r.unparsed) (.list [.str py!"000O0KT", .str py!"SCT0320"]))) = true := by decide +kernel

example : ok (Metar.new testDb testClock
    py!"METAR MRLM 271500Z 11005KT 9999 FEW025 BKN25O 29/22 A2984 RMK HZY"
    ⟨none, none, false⟩) (fun r =>
    (same (strs r.unparsed) (.list [.str py!"BKN25O"]))) = true := by decide +kernel

example : ok (Metar.new testDb testClock
    py!"METAR MRLM 072200Z 00000KT 9999 TSRA FEW015CV SCT018 BKN130 27/24 A2978"
    ⟨none, none, false⟩) (fun r =>
    (same (strs r.unparsed) (.list [.str py!"FEW015CV"]))) = true := by decide +kernel

example : ok (Metar.new testDb testClock
    py!"METAR MRLM 041300Z 23003KT 9999 FEW0230 SCT240 25/22 A2983"
    ⟨none, none, false⟩) (fun r =>
    (same (strs r.unparsed) (.list [.str py!"FEW0230"]))) = true := by decide +kernel

example : ok (Metar.new testDb testClock
    py!"METAR MRLM 101800Z 25005KT 9999 3000 SW TSRA FEW006 SCT15CB BKN035  23/22 A2984 RMK TS SW W"
    ⟨none, none, false⟩) (fun r =>
    (same (strs r.unparsed) (.list [.str py!"SW", .str py!"SCT15CB"]))) = true := by decide +kernel

example : ok (Metar.new testDb testClock
    py!"METAR MRLM 010000Z VRB03KT 9999 FEW018 SCT0130 BKN270 27/23 A2973"
    ⟨none, none, false⟩) (fun r =>
    (same (strs r.unparsed) (.list [.str py!"SCT0130"]))) = true := by decide +kernel

example : ok (Metar.new testDb testClock
    py!"METAR MRLM 111400Z VBR03KT 9999 CAVOK 26/23 A2982"
    ⟨none, none, false⟩) (fun r =>
    (same (strs r.unparsed) (.list [.str py!"VBR03KT", .str py!"CAVOK"]))) = true := by decide +kernel

example : ok (Metar.new testDb testClock
    py!"METAR MRLM 221800Z 08012KT 9999 FEW028 SCT110 BKN270 30/24 Q1011 A2986 RMK CB DST SW RN DST ENE"
    ⟨none, none, false⟩) (fun r =>
    (same (strs r.unparsed) (.list []))) = true := by decide +kernel

example : ok (Metar.new testDb testClock
    py!"METAR MRLM 272200Z 31107KT 9999 FEW032 RA BKN140 28/2 A2977 RMK CB RN DST S"
    ⟨none, none, false⟩) (fun r =>
    (same (strs r.unparsed) (.list [.str py!"31107KT", .str py!"RA", .str py!"28/2"]))) = true := by decide +kernel

example : ok (Metar.new testDb testClock
    py!"METAR MSSS 081250Z 13003KT 2000 BR SCT010 22/22 Q1015 BECMG 34505KT"
    ⟨none, none, false⟩) (fun r =>
    (same (strs r.unparsed) (.list [.str py!"34505KT"]))) = true := by decide +kernel

end Verif.Tests
