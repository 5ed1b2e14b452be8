import Verif.Model.TafGroups

/-
The properties through which the groups expose their quantities in other units. Each is a
one-line delegation in the source; the class and lines are cited.
-/

namespace Verif

/-- `Numeric.converted(factor, conversion)` (numeric.py 19-44) in full: a factor that is zero or
missing leaves the decision to the conversion. -/
def numericConverted (v factor : Option F64) (conversion : Option (F64 → F64)) : Option F64 :=
  match v with
  | none => none
  | some x =>
    if truthyO factor then factor.map fun f => x.mul f
    else conversion.map fun g => g x

/-! ### Wind: `MetarWind` inherits from `Wind` (base/wind.py 227-269), gusts in metar/wind.py 37-54 -/

def MetarWind.cardinalDirection (w : MetarWind) : Option PyStr := w.direction.cardinal    -- 227-229
def MetarWind.variable_ (w : MetarWind) : Bool := w.direction.variable_                   -- 232-234
def MetarWind.directionInDegrees (w : MetarWind) : Option F64 := w.direction.value        -- 237-239
def MetarWind.directionInRadians (w : MetarWind) : Option F64 := w.direction.inRadians    -- 242-244
def MetarWind.directionInGradians (w : MetarWind) : Option F64 := w.direction.inGradians  -- 247-249
def MetarWind.speedInKnot (w : MetarWind) : Option F64 := w.speed                         -- 252-254
def MetarWind.speedInMps (w : MetarWind) : Option F64 := inMps w.speed                    -- 257-259
def MetarWind.speedInKph (w : MetarWind) : Option F64 := inKph w.speed                    -- 262-264
def MetarWind.speedInMiph (w : MetarWind) : Option F64 := inMiph w.speed                  -- 267-269
def MetarWind.gustInKnot (w : MetarWind) : Option F64 := w.gust                           -- 37-39
def MetarWind.gustInMps (w : MetarWind) : Option F64 := inMps w.gust                      -- 42-44
def MetarWind.gustInKph (w : MetarWind) : Option F64 := inKph w.gust                      -- 47-49
def MetarWind.gustInMiph (w : MetarWind) : Option F64 := inMiph w.gust                    -- 52-54

/-! ### Wind variation (metar/wind_variation.py 36-73) -/

def WindVariation.fromCardinalDirection (w : WindVariation) : Option PyStr := w.from_.cardinal  -- 36-38
def WindVariation.fromInDegrees (w : WindVariation) : Option F64 := w.from_.value               -- 41-43
def WindVariation.fromInRadians (w : WindVariation) : Option F64 :=                             -- 46-48
  converted w.from_.value Conv.DEGREES_TO_RADIANS
def WindVariation.fromInGradians (w : WindVariation) : Option F64 :=                            -- 51-53
  converted w.from_.value Conv.DEGREES_TO_GRADIANS
def WindVariation.toCardinalDirection (w : WindVariation) : Option PyStr := w.to.cardinal       -- 56-58
def WindVariation.toInDegrees (w : WindVariation) : Option F64 := w.to.value                    -- 61-63
def WindVariation.toInRadians (w : WindVariation) : Option F64 :=                               -- 66-68
  converted w.to.value Conv.DEGREES_TO_RADIANS
def WindVariation.toInGradians (w : WindVariation) : Option F64 :=                              -- 71-73
  converted w.to.value Conv.DEGREES_TO_GRADIANS

/-! ### Visibility (metar/visibility.py 24-41, 72-89) -/

def Visibility.inMeters (v : Visibility) : Option F64 := v.vis                                  -- 24-26
def Visibility.inKilometers (v : Visibility) : Option F64 := Verif.inKilometers v.vis           -- 29-31
def Visibility.inSeaMiles (v : Visibility) : Option F64 := Verif.inSeaMiles v.vis               -- 34-36
def Visibility.inFeet (v : Visibility) : Option F64 := Verif.inFeet v.vis                       -- 39-41
def Visibility.cardinalDirection (v : Visibility) : Option PyStr := v.direction.cardinal        -- 72-74
def Visibility.directionInDegrees (v : Visibility) : Option F64 := v.direction.value            -- 77-79
def Visibility.directionInRadians (v : Visibility) : Option F64 := v.direction.inRadians        -- 82-84
def Visibility.directionInGradians (v : Visibility) : Option F64 := v.direction.inGradians      -- 87-89

/-! ### Clouds (base/cloud.py 163-180; feet are `Cloud.heightInFeet`) -/

def Cloud.heightInMeters (c : Cloud) : Option F64 := c.height                                   -- 163-165
def Cloud.heightInKilometers (c : Cloud) : Option F64 := inKilometers c.height                  -- 168-170
def Cloud.heightInSeaMiles (c : Cloud) : Option F64 := inSeaMiles c.height                      -- 173-175

/-! ### Runway visual range (metar/runway_range.py 118-160) -/

def RunwayRange.lowInMeters (r : RunwayRange) : Option F64 := r.low                             -- 118-120
def RunwayRange.lowInKilometers (r : RunwayRange) : Option F64 := inKilometers r.low            -- 123-125
def RunwayRange.lowInSeaMiles (r : RunwayRange) : Option F64 := inSeaMiles r.low                -- 128-130
def RunwayRange.lowInFeet (r : RunwayRange) : Option F64 := inFeet r.low                        -- 133-135
def RunwayRange.highInMeters (r : RunwayRange) : Option F64 := r.high                           -- 143-145
def RunwayRange.highInKilometers (r : RunwayRange) : Option F64 := inKilometers r.high          -- 148-150
def RunwayRange.highInSeaMiles (r : RunwayRange) : Option F64 := inSeaMiles r.high              -- 153-155
def RunwayRange.highInFeet (r : RunwayRange) : Option F64 := inFeet r.high                      -- 158-160

/-! ### Temperatures (metar/temperatures.py 46-83; taf/temperature.py 9 inherits from `Temperature`,
temperature.py 35-52) -/

def Temperatures.temperatureInCelsius (t : Temperatures) : Option F64 := t.temperature                 -- 46-48
def Temperatures.temperatureInKelvin (t : Temperatures) : Option F64 := inKelvin t.temperature         -- 51-53
def Temperatures.temperatureInFahrenheit (t : Temperatures) : Option F64 := inFahrenheit t.temperature -- 56-58
def Temperatures.temperatureInRankine (t : Temperatures) : Option F64 := inRankine t.temperature       -- 61-63
def Temperatures.dewpointInCelsius (t : Temperatures) : Option F64 := t.dewpoint                       -- 66-68
def Temperatures.dewpointInKelvin (t : Temperatures) : Option F64 := inKelvin t.dewpoint               -- 71-73
def Temperatures.dewpointInFahrenheit (t : Temperatures) : Option F64 := inFahrenheit t.dewpoint       -- 76-78
def Temperatures.dewpointInRankine (t : Temperatures) : Option F64 := inRankine t.dewpoint             -- 81-83
def TafTemperature.inCelsius (t : TafTemperature) : Option F64 := t.value                              -- 35-37
def TafTemperature.inKelvin (t : TafTemperature) : Option F64 := Verif.inKelvin t.value                -- 40-42
def TafTemperature.inFahrenheit (t : TafTemperature) : Option F64 := Verif.inFahrenheit t.value        -- 45-47
def TafTemperature.inRankine (t : TafTemperature) : Option F64 := Verif.inRankine t.value              -- 50-52

/-! ### Pressure (metar/pressure.py 10 inherits from `Pressure`, pressure.py 28-50) -/

def MetarPressure.inHPa (p : MetarPressure) : Option F64 := p.value                             -- 28-30
def MetarPressure.inInHg (p : MetarPressure) : Option F64 := Verif.inInHg p.value               -- 33-35
def MetarPressure.inMbar (p : MetarPressure) : Option F64 := Verif.inMbar p.value               -- 38-40
def MetarPressure.inBar (p : MetarPressure) : Option F64 := Verif.inBar p.value                 -- 43-45
def MetarPressure.inAtm (p : MetarPressure) : Option F64 := Verif.inAtm p.value                 -- 48-50

/-! ### Sea (metar/sea_state.py 90-132; centimetres, decimetres and inches are in MetarGroups) -/

def SeaState.temperatureInCelsius (s : SeaState) : Option F64 := s.temperature                  -- 90-92
def SeaState.temperatureInKelvin (s : SeaState) : Option F64 := inKelvin s.temperature          -- 95-97
def SeaState.temperatureInFahrenheit (s : SeaState) : Option F64 := inFahrenheit s.temperature  -- 100-102
def SeaState.temperatureInRankine (s : SeaState) : Option F64 := inRankine s.temperature        -- 105-107
def SeaState.heightInMeters (s : SeaState) : Option F64 := s.height                             -- 110-112
def SeaState.heightInFeet (s : SeaState) : Option F64 := converted s.height Conv.M_TO_FT        -- 125-127

end Verif
