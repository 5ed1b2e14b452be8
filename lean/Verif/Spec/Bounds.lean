import Verif.Model.Taf

/-
The ranges the numbers of a report lie in.
-/

namespace Verif.Spec

/-- The number, if there is one, lies between `lo` and `hi`. -/
def Between (lo hi : Rat) (o : Option F64) : Prop := ∀ x, o = some x → lo ≤ x.val ∧ x.val ≤ hi

/-- Wind (degrees, knots), prevailing visibility (metres, degrees) and clouds (metres). The largest
wind is `999MPS`, the largest visibility `99 9/1SM`, the highest cloud `999`. -/
structure CoreBounds (c : Core) : Prop where
  direction : Between 0 360 c.wind.direction.value
  speed : Between 0 1942 c.wind.speed
  gust : Between 0 1942 c.wind.gust
  visibility : Between 0 200017 c.prevailing.vis
  towards : Between 45 360 c.prevailing.direction.value
  clouds : ∀ x ∈ c.clouds.list, Between 0 30450 x.height

/-- All the numbers of a METAR: degrees, metres, degrees Celsius and hectopascals. The largest pressure
is a bare `9999`, read as inches of mercury. -/
structure MetarBounds (r : Metar) : Prop where
  core : CoreBounds r.core
  trends : ∀ p ∈ r.weatherTrends.list, CoreBounds p.core
  variation : Between 10 360 r.windVariation.from_.value ∧ Between 10 360 r.windVariation.to.value
  minimum : Between 0 10000 r.minimumVisibility.vis
  minimumTowards : Between 45 360 r.minimumVisibility.direction.value
  ranges : ∀ x ∈ r.runwayRanges.list, Between 0 10000 x.low ∧ Between 0 10000 x.high
  temperature : Between (-99) 99 r.temperatures.temperature
  dewpoint : Between (-99) 99 r.temperatures.dewpoint
  pressure : Between 0 338605 r.pressure.value
  sea : Between (-99) 99 r.seaState.temperature
  waves : Between 0 100 r.seaState.height

/-- All the numbers of a TAF. -/
structure TafBounds (r : Taf) : Prop where
  core : CoreBounds r.core
  changes : ∀ x ∈ r.changes.list, CoreBounds x.core
  max : ∀ x ∈ r.maxTemperatures.list, Between (-99) 99 x.value
  min : ∀ x ∈ r.minTemperatures.list, Between (-99) 99 x.value

end Verif.Spec
