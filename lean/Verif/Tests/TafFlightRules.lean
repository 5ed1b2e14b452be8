import Verif.Tests.Database

/-
The assertions of tests/taf/test_flight_rules.py, checked of the model. Generated by tools/tests2lean.py.
-/

namespace Verif.Tests

/-! `test_taf_flight_rules` (tests/taf/test_flight_rules.py 4-19) -/

example : ok (Taf.new testDb testClock
    py!"\n    TAF UUDD 061958Z 0621/0803 22003MPS 9999 SCT016 TX09/0712Z TNM03/0621Z\n        BECMG 0703/0704 18008G14MPS 5000 -SNRA\n        TEMPO 0704/0709 0700 +SHSN FEW007 BKN016CB\n        PROB40\n        TEMPO 0704/0709 -FZRA OVC007\n    "
    ⟨none, none, false⟩) (fun r =>
    (same (.ofStr (r.core.flightRules)) (.str py!"VFR")) &&
    (ok (r.changes.getItem 0) fun v1 => same (.ofStr (v1.core.flightRules)) (.str py!"MVFR")) &&
    (ok (r.changes.getItem 1) fun v2 => same (.ofStr (v2.core.flightRules)) (.str py!"VLIFR")) &&
    (ok (r.changes.getItem 2) fun v3 => same (.ofStr (v3.core.flightRules)) (.str py!"IFR"))) = true := by decide +kernel

end Verif.Tests
