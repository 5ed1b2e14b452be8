import Verif.Tests.Database

/-
The assertions of tests/metar/test_runway_state.py, checked of the model. Generated by tools/tests2lean.py.
-/

namespace Verif.Tests

/-! `test_snoclo` (tests/metar/test_runway_state.py 4-28) -/

example : ok (Metar.new testDb testClock
    py!"METAR PANC 210353Z 01006KT 10SM FEW045 BKN070 OVC100 M05/M17 A2965 R09L/SNOCLO"
    ⟨none, none, false⟩) (fun r =>
    (same (.ofStr r.runwayState.code) (.str py!"R09L/SNOCLO")) &&
    (same (.ofStr r.runwayState.name) (.str py!"09 left")) &&
    (same (.ofStr r.runwayState.deposits) (.none)) &&
    (same (.ofStr r.runwayState.contamination) (.none)) &&
    (same (.ofStr r.runwayState.depth) (.none)) &&
    (same (.ofStr r.runwayState.friction) (.none)) &&
    (same (.bool r.runwayState.snoclo) (.bool true)) &&
    (same (.ofStr r.runwayState.clrd) (.none)) &&
    (same (.str r.runwayState.str) (.str py!"aerodrome is closed due to extreme deposit of snow")) &&
    (same r.runwayState.dict (.dict [(py!"clrd", .none), (py!"code", .str py!"R09L/SNOCLO"), (py!"contamination", .none), (py!"deposits", .none), (py!"deposits_depth", .none), (py!"name", .str py!"09 left"), (py!"snoclo", .bool true), (py!"surface_friction", .none)]))) = true := by decide +kernel

/-! `test_clrd` (tests/metar/test_runway_state.py 31-55) -/

example : ok (Metar.new testDb testClock
    py!"METAR PANC 210353Z 01006KT 10SM FEW045 BKN070 OVC100 M05/M17 A2965 R25C/CLRD//"
    ⟨none, none, false⟩) (fun r =>
    (same (.ofStr r.runwayState.code) (.str py!"R25C/CLRD//")) &&
    (same (.ofStr r.runwayState.name) (.str py!"25 center")) &&
    (same (.ofStr r.runwayState.deposits) (.none)) &&
    (same (.ofStr r.runwayState.contamination) (.none)) &&
    (same (.ofStr r.runwayState.depth) (.none)) &&
    (same (.ofStr r.runwayState.friction) (.none)) &&
    (same (.bool r.runwayState.snoclo) (.bool false)) &&
    (same (.ofStr r.runwayState.clrd) (.str py!"contaminations have ceased to exists on runway 25 center")) &&
    (same (.str r.runwayState.str) (.str py!"contaminations have ceased to exists on runway 25 center")) &&
    (same r.runwayState.dict (.dict [(py!"clrd", .str py!"contaminations have ceased to exists on runway 25 center"), (py!"code", .str py!"R25C/CLRD//"), (py!"contamination", .none), (py!"deposits", .none), (py!"deposits_depth", .none), (py!"name", .str py!"25 center"), (py!"snoclo", .bool false), (py!"surface_friction", .none)]))) = true := by decide +kernel

/-! `test_runway_state` (tests/metar/test_runway_state.py 58-85) -/

example : ok (Metar.new testDb testClock
    py!"METAR PANC 210353Z 01006KT 10SM FEW045 BKN070 OVC100 M05/M17 A2965 R10R/527650"
    ⟨none, none, false⟩) (fun r =>
    (same (.ofStr r.runwayState.code) (.str py!"R10R/527650")) &&
    (same (.ofStr r.runwayState.name) (.str py!"10 right")) &&
    (same (.ofStr r.runwayState.deposits) (.str py!"wet snow")) &&
    (same (.ofStr r.runwayState.contamination) (.str py!"11%-25% of runway")) &&
    (same (.ofStr r.runwayState.depth) (.str py!"76 mm")) &&
    (same (.ofStr r.runwayState.friction) (.str py!"0.50")) &&
    (same (.bool r.runwayState.snoclo) (.bool false)) &&
    (same (.ofStr r.runwayState.clrd) (.none)) &&
    (same (.str r.runwayState.str) (.str py!"10 right, deposits of 76 mm of wet snow, contamination 11%-25% of runway, estimated surface friction 0.50")) &&
    (same r.runwayState.dict (.dict [(py!"clrd", .none), (py!"code", .str py!"R10R/527650"), (py!"contamination", .str py!"11%-25% of runway"), (py!"deposits", .str py!"wet snow"), (py!"deposits_depth", .str py!"76 mm"), (py!"name", .str py!"10 right"), (py!"snoclo", .bool false), (py!"surface_friction", .str py!"0.50")]))) = true := by decide +kernel

/-! `test_no_runway_state` (tests/metar/test_runway_state.py 88-110) -/

example : ok (Metar.new testDb testClock
    py!"METAR PANC 210353Z 01006KT 10SM FEW045 BKN070 OVC100 M05/M17 A2965"
    ⟨none, none, false⟩) (fun r =>
    (same (.ofStr r.runwayState.code) (.none)) &&
    (same (.ofStr r.runwayState.name) (.none)) &&
    (same (.ofStr r.runwayState.deposits) (.none)) &&
    (same (.ofStr r.runwayState.contamination) (.none)) &&
    (same (.ofStr r.runwayState.depth) (.none)) &&
    (same (.ofStr r.runwayState.friction) (.none)) &&
    (same (.bool r.runwayState.snoclo) (.bool false)) &&
    (same (.ofStr r.runwayState.clrd) (.none)) &&
    (same (.str r.runwayState.str) (.str [])) &&
    (same r.runwayState.dict (.dict [(py!"clrd", .none), (py!"code", .none), (py!"contamination", .none), (py!"deposits", .none), (py!"deposits_depth", .none), (py!"name", .none), (py!"snoclo", .bool false), (py!"surface_friction", .none)]))) = true := by decide +kernel

end Verif.Tests
