import Verif.Spec.Dict
import Verif.Model.Taf

/-
Specification of the dictionaries of the change indicators (C82).
-/

namespace Verif.Spec
open Verif

/-- The table of the indicator of a METAR trend; the entry "at" is `None` without an `AT` group. -/
def trendIndicatorTable (i : TrendIndicator) : Table :=
  sub py!"forecast_period" (sub py!"init" (timeTable i.init) ++ sub py!"end" (timeTable i.end_)) ++
  sub py!"from_" (timeTable i.from_) ++ sub py!"until" (timeTable i.until_) ++
  (match i.at_ with
    | some a => sub py!"at" (timeTable a)
    | none => text py!"at" none) ++
  text py!"translation" i.translation ++ text py!"code" i.code

/-- The table of the indicator of a change of a TAF. -/
def tafIndicatorTable (i : TafIndicator) : Table :=
  sub py!"valid" (validTable i.valid) ++ text py!"translation" i.translation ++ text py!"code" i.code

end Verif.Spec
