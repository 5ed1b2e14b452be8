import Verif.Spec.Calendar
import Verif.Spec.Own
import Verif.Spec.Periods

/-
Two readings of one text in different months.
-/

namespace Verif.Spec

/-- `u` lies as many minutes after `t` as `u'` after `t'`. -/
def Moved (t t' u u' : DT) : Prop := ∃ n : Int, After t n u ∧ After t' n u'

/-- The two times differ in year and month only. -/
def SameClock (t t' : DT) : Prop := t.day = t'.day ∧ t.hour = t'.hour ∧ t.minute = t'.minute

/-- The times of a trend, seen from the time of the report. -/
structure TrendMoved (t t' : DT) (i i' : TrendIndicator) : Prop where
  code : i.code = i'.code
  init : Moved t t' i.init.time i'.init.time
  end_ : Moved t t' i.end_.time i'.end_.time
  from_ : Moved t t' i.from_.time i'.from_.time
  until_ : Moved t t' i.until_.time i'.until_.time
  at_ : (i.at_ = none ∧ i'.at_ = none) ∨
    ∃ x x', i.at_ = some x ∧ i'.at_ = some x' ∧ Moved t t' x.time x'.time

/-- Wind, visibility, weather and clouds are the same. -/
structure SameForecast (f f' : Core) : Prop where
  wind : f.wind = f'.wind
  prevailing : f.prevailing = f'.prevailing
  weathers : f.weathers.list = f'.weathers.list
  clouds : f.clouds.list = f'.clouds.list

/-- A period, seen from a time. -/
def PeriodMoved (t t' : DT) (v v' : Valid) : Prop :=
  v.code = v'.code ∧ Moved t t' v.from_.time v'.from_.time ∧ Moved t t' v.until_.time v'.until_.time

/-- Everything that a METAR says, the station, the times and the texts apart. -/
def SameMetar (r r' : Metar) : Prop :=
  r.type = r'.type ∧ r.modifier = r'.modifier ∧ SameForecast r.core r'.core ∧
  r.windVariation = r'.windVariation ∧ r.minimumVisibility = r'.minimumVisibility ∧
  r.runwayRanges.list = r'.runwayRanges.list ∧ r.temperatures = r'.temperatures ∧ r.pressure = r'.pressure ∧
  r.recentWeather = r'.recentWeather ∧ r.windshears.list = r'.windshears.list ∧
  r.seaState = r'.seaState ∧ r.runwayState = r'.runwayState

/-- The same of a TAF, the valid period and the temperatures apart. -/
def SameTaf (r r' : Taf) : Prop :=
  r.type = r'.type ∧ r.modifier = r'.modifier ∧ r.missing = r'.missing ∧ r.cancelled = r'.cancelled ∧
  SameForecast r.core r'.core

/-- A temperature forecast, its time seen from the time of the report. -/
structure TempMoved (t t' : DT) (x x' : TafTemperature) : Prop where
  code : x.code = x'.code
  value : x.value = x'.value
  time : Moved t t' x.time.time x'.time.time

/-- The change has a group with a valid period. -/
def HasPeriod (x : ChangeForecasted) : Prop :=
  ∃ c g, Decodes ChangeForecasted.handlers (changeGroups x.code) c ∧ (g, 1) ∈ c

end Verif.Spec
