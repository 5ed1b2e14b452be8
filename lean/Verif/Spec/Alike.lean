import Verif.Spec.Report

/-
Specification for C107: the same groups in different parts of reports.
-/

namespace Verif.Spec

/-- Wind, visibility, weather and clouds `f` of a METAR, of one of its trends, of a TAF or of one of its changes,
and the groups that were decoded as wind, visibility, weather and clouds there. -/
inductive ForecastPart (f : Core) : (wind visibility weathers clouds : List PyStr) → Prop
  | metar {db : Database} {clock : Clock} {code : PyStr} {a : Args} {r : Metar} {c : List (PyStr × Nat)} :
      Metar.new db clock code a = .ok r → r.core = f →
      Decodes (Metar.handlers db (clock 2) a) (metarGroups r.body) c →
      ForecastPart f (taken c 4 4) (taken c 6 6) (taken c 11 13) (taken c 14 17)
  | trend {db : Database} {clock : Clock} {code : PyStr} {a : Args} {r : Metar} {p : ChangePeriod} {text : PyStr}
      {c : List (PyStr × Nat)} :
      Metar.new db clock code a = .ok r → p ∈ r.weatherTrends.list → p.code = some text → p.core = f →
      Decodes ChangePeriod.handlers (bodyGroups text) c →
      ForecastPart f (taken c 3 3) (taken c 4 4) (taken c 5 7) (taken c 8 11)
  | taf {db : Database} {clock : Clock} {code : PyStr} {a : Args} {r : Taf} {c : List (PyStr × Nat)} :
      Taf.new db clock code a = .ok r → r.core = f →
      Decodes (Taf.handlers db (clock 1) a) (bodyGroups r.body) c →
      ForecastPart f (taken c 7 7) (taken c 8 8) (taken c 9 11) (taken c 12 15)
  | change {db : Database} {clock : Clock} {code : PyStr} {a : Args} {r : Taf} {x : ChangeForecasted}
      {c : List (PyStr × Nat)} :
      Taf.new db clock code a = .ok r → x ∈ r.changes.list → x.core = f →
      Decodes ChangeForecasted.handlers (changeGroups x.code) c →
      ForecastPart f (taken c 2 2) (taken c 3 3) (taken c 4 6) (taken c 7 10)

end Verif.Spec
