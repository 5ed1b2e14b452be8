import Verif.Model.Metar
import Verif.Model.Taf

/-
Specification for C97: the codes of the attributes of a report, in their order.
-/

namespace Verif.Spec

/-- The codes that are there. -/
def present (l : List (Option PyStr)) : List (Option PyStr) := l.filter Option.isSome

/-- The codes of a METAR after its type; `ps` are the codes of the pressure groups. -/
def metarStated (r : Metar) (ps : List (Option PyStr)) : List (Option PyStr) :=
  r.station.code :: r.time.code :: r.modifier.code :: r.core.wind.code :: r.windVariation.code ::
  r.core.prevailing.code :: r.minimumVisibility.code :: (r.runwayRanges.list.map RunwayRange.code ++
  (r.core.weathers.list.map Weather.code ++ (r.core.clouds.list.map Cloud.code ++
  (r.temperatures.code :: (ps ++ (r.recentWeather.code :: (r.windshears.list.map Windshear.code ++
  [r.seaState.code, r.runwayState.code])))))))

/-- Those of a TAF after its type; `ts` are the codes of the temperature groups. -/
def tafStated (r : Taf) (ts : List (Option PyStr)) : List (Option PyStr) :=
  r.modifier.code :: r.station.code :: r.time.code :: r.missing.mod.code :: r.valid.code ::
  r.cancelled.code :: r.core.wind.code :: r.core.prevailing.code ::
  (r.core.weathers.list.map Weather.code ++ (r.core.clouds.list.map Cloud.code ++ ts))

/-- Those of a trend or change after its indicator. -/
def forecastStated (x : Core) : List (Option PyStr) :=
  x.wind.code :: x.prevailing.code :: (x.weathers.list.map Weather.code ++ x.clouds.list.map Cloud.code)

/-- Texts set side by side with a blank between each two; `none` if one of them is missing. -/
def sideBySide : List (Option PyStr) → Option PyStr
  | [] => some []
  | [x] => x
  | x :: l => x.bind fun x => (sideBySide l).map fun t => x ++ 32 :: t

end Verif.Spec
