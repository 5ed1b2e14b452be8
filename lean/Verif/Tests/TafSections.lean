import Verif.Tests.Database

/-
The assertions of tests/taf/test_sections.py, checked of the model. Generated by tools/tests2lean.py.
-/

namespace Verif.Tests

/-! `test_sections_variated` (tests/taf/test_sections.py 4-27) -/

example : ok (Taf.new testDb testClock
    py!"\n    TAF OEDF 182100Z 1900/2006 16007KT 5000 BR NSC\n        PROB30\n        TEMPO 1902/1904 2000\n        BECMG 1907/1909 13018KT 8000\n        TEMPO 1918/2006 5000 BLDU SCT040 BKN080\n        PROB30\n        TEMPO 2000/2005 VRB25KT 3000 TSRA FEW030CB\n    "
    ⟨none, none, false⟩) (fun r =>
    (same (strs r.sections) (.list [.str py!"TAF OEDF 182100Z 1900/2006 16007KT 5000 BR NSC", .str py!"PROB30 TEMPO 1902/1904 2000 BECMG 1907/1909 13018KT 8000 TEMPO 1918/2006 5000 BLDU SCT040 BKN080 PROB30 TEMPO 2000/2005 VRB25KT 3000 TSRA FEW030CB"])) &&
    (same (.str r.body) (.str py!"TAF OEDF 182100Z 1900/2006 16007KT 5000 BR NSC")) &&
    (same (.str r.weatherChanges) (.str py!"PROB30 TEMPO 1902/1904 2000 BECMG 1907/1909 13018KT 8000 TEMPO 1918/2006 5000 BLDU SCT040 BKN080 PROB30 TEMPO 2000/2005 VRB25KT 3000 TSRA FEW030CB"))) = true := by decide +kernel

/-! `test_sections_with_from` (tests/taf/test_sections.py 30-45) -/

example : ok (Taf.new testDb testClock
    py!"\n    TAF OKBK 190445Z 1906/2012 15015G25KT 6000 SCT040 BKN080\n        PROB30\n        TEMPO 1906/1915 2000 BLDU\n        FM190900 0800 DS\n    "
    ⟨none, none, false⟩) (fun r =>
    (same (strs r.sections) (.list [.str py!"TAF OKBK 190445Z 1906/2012 15015G25KT 6000 SCT040 BKN080", .str py!"PROB30 TEMPO 1906/1915 2000 BLDU FM190900 0800 DS"])) &&
    (same (.str r.body) (.str py!"TAF OKBK 190445Z 1906/2012 15015G25KT 6000 SCT040 BKN080")) &&
    (same (.str r.weatherChanges) (.str py!"PROB30 TEMPO 1906/1915 2000 BLDU FM190900 0800 DS"))) = true := by decide +kernel

/-! `test_sections_no_weather_changes` (tests/taf/test_sections.py 48-58) -/

example : ok (Taf.new testDb testClock
    py!"TAF MRPV 190500Z 1906/2006 10017G28KT CAVOK TX27/1919Z TN18/1911Z"
    ⟨none, none, false⟩) (fun r =>
    (same (strs r.sections) (.list [.str py!"TAF MRPV 190500Z 1906/2006 10017G28KT CAVOK TX27/1919Z TN18/1911Z", .str []])) &&
    (same (.str r.body) (.str py!"TAF MRPV 190500Z 1906/2006 10017G28KT CAVOK TX27/1919Z TN18/1911Z")) &&
    (same (.str r.weatherChanges) (.str []))) = true := by decide +kernel

end Verif.Tests
