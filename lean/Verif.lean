import Verif.Py.DateTime
import Verif.Py.Exc
import Verif.Py.Float
import Verif.Py.Regex
import Verif.Py.Repr
import Verif.Py.Str
import Verif.Model.Accessors
import Verif.Model.Base
import Verif.Model.Conversions
import Verif.Model.Forecast
import Verif.Model.Group
import Verif.Model.Json
import Verif.Model.JsonParts
import Verif.Model.Main
import Verif.Model.Metar
import Verif.Model.MetarGroups
import Verif.Model.Output
import Verif.Model.Regexps
import Verif.Model.Setters
import Verif.Model.Stations.All
import Verif.Model.Stations.Countries
import Verif.Model.Stations.Part0
import Verif.Model.Stations.Part1
import Verif.Model.Stations.Part2
import Verif.Model.Stations.Part3
import Verif.Model.Stations.Part4
import Verif.Model.Stations.Part5
import Verif.Model.Stations.Part6
import Verif.Model.Stations.Part7
import Verif.Model.Stations.Part8
import Verif.Model.Stations.Part9
import Verif.Model.Stations.Rows
import Verif.Model.Taf
import Verif.Model.TafGroups
import Verif.Model.Uses
import Verif.Model.Utils
import Verif.Spec.Account
import Verif.Spec.Alike
import Verif.Spec.Ambiguity
import Verif.Spec.Archive
import Verif.Spec.Binary64
import Verif.Spec.Both
import Verif.Spec.Bounds
import Verif.Spec.Calendar
import Verif.Spec.Changes
import Verif.Spec.ChangesText
import Verif.Spec.CloudReport
import Verif.Spec.Clouds
import Verif.Spec.Compare
import Verif.Spec.Complete
import Verif.Spec.Dict
import Verif.Spec.Direction
import Verif.Spec.Engine
import Verif.Spec.Foreign
import Verif.Spec.Grammar
import Verif.Spec.GroupText
import Verif.Spec.Indicators
import Verif.Spec.Insert
import Verif.Spec.Json
import Verif.Spec.JsonParts
import Verif.Spec.LeftOut
import Verif.Spec.Length
import Verif.Spec.Lines
import Verif.Spec.Lists
import Verif.Spec.Local
import Verif.Spec.Methods
import Verif.Spec.Moved
import Verif.Spec.Num
import Verif.Spec.Numerals
import Verif.Spec.Output
import Verif.Spec.Own
import Verif.Spec.Parse
import Verif.Spec.PatternText
import Verif.Spec.Periods
import Verif.Spec.Printing
import Verif.Spec.Quantities
import Verif.Spec.Rearranged
import Verif.Spec.RecordText
import Verif.Spec.Refusal
import Verif.Spec.Replace
import Verif.Spec.Report
import Verif.Spec.RoundTrip
import Verif.Spec.Rules
import Verif.Spec.Runway
import Verif.Spec.Same
import Verif.Spec.Sanitize
import Verif.Spec.Sections
import Verif.Spec.Setters
import Verif.Spec.Split
import Verif.Spec.Stations
import Verif.Spec.Tables
import Verif.Spec.TafRecord
import Verif.Spec.TafRefusal
import Verif.Spec.Temperatures
import Verif.Spec.Text
import Verif.Spec.Timeline
import Verif.Spec.TrendRecord
import Verif.Spec.Uses
import Verif.Spec.Visibility
import Verif.Spec.Weather
import Verif.Spec.Wind
import Verif.Lemmas.Account
import Verif.Lemmas.Ambiguity
import Verif.Lemmas.Apart
import Verif.Lemmas.Attr
import Verif.Lemmas.Binary64
import Verif.Lemmas.Blanks
import Verif.Lemmas.Bounds
import Verif.Lemmas.Calendar
import Verif.Lemmas.Captures
import Verif.Lemmas.Chars
import Verif.Lemmas.Clash
import Verif.Lemmas.Clouds
import Verif.Lemmas.Codes
import Verif.Lemmas.Compare
import Verif.Lemmas.Complete
import Verif.Lemmas.Construct
import Verif.Lemmas.Cross
import Verif.Lemmas.Cut
import Verif.Lemmas.Dates
import Verif.Lemmas.Decoded
import Verif.Lemmas.Dict
import Verif.Lemmas.Digits
import Verif.Lemmas.Engine
import Verif.Lemmas.Exact
import Verif.Lemmas.Except
import Verif.Lemmas.Fits
import Verif.Lemmas.Float
import Verif.Lemmas.Foreign
import Verif.Lemmas.Forms
import Verif.Lemmas.Frame
import Verif.Lemmas.GroupOk
import Verif.Lemmas.GroupText
import Verif.Lemmas.Indicator
import Verif.Lemmas.Insert
import Verif.Lemmas.Instants
import Verif.Lemmas.Inverse
import Verif.Lemmas.Json
import Verif.Lemmas.JsonAscii
import Verif.Lemmas.JsonParts
import Verif.Lemmas.JsonValues
import Verif.Lemmas.LeftOut
import Verif.Lemmas.Length
import Verif.Lemmas.Lines
import Verif.Lemmas.Local
import Verif.Lemmas.Made
import Verif.Lemmas.MadeGroups
import Verif.Lemmas.MadeReports
import Verif.Lemmas.MadeTexts
import Verif.Lemmas.Matched
import Verif.Lemmas.MetarApart
import Verif.Lemmas.MetarAttr
import Verif.Lemmas.Methods
import Verif.Lemmas.NoNewline
import Verif.Lemmas.Numerals
import Verif.Lemmas.Ordinary
import Verif.Lemmas.Output
import Verif.Lemmas.Own
import Verif.Lemmas.Parse
import Verif.Lemmas.Paths
import Verif.Lemmas.PatternText
import Verif.Lemmas.PeriodAttr
import Verif.Lemmas.PeriodForms
import Verif.Lemmas.Periods
import Verif.Lemmas.Plain
import Verif.Lemmas.Prefix
import Verif.Lemmas.Pressure
import Verif.Lemmas.Printing
import Verif.Lemmas.Quantities
import Verif.Lemmas.Raises
import Verif.Lemmas.RangeForms
import Verif.Lemmas.RangeRead
import Verif.Lemmas.Read
import Verif.Lemmas.Rearranged
import Verif.Lemmas.Recent
import Verif.Lemmas.RecentForms
import Verif.Lemmas.Refusal
import Verif.Lemmas.Regex
import Verif.Lemmas.Relabel
import Verif.Lemmas.Replace
import Verif.Lemmas.Report
import Verif.Lemmas.Repr
import Verif.Lemmas.ReprRead
import Verif.Lemmas.RunErr
import Verif.Lemmas.Runway
import Verif.Lemmas.RunwayState
import Verif.Lemmas.Same
import Verif.Lemmas.Sanitize
import Verif.Lemmas.Sections
import Verif.Lemmas.Setters
import Verif.Lemmas.ShownNum
import Verif.Lemmas.Slots
import Verif.Lemmas.SmallForms
import Verif.Lemmas.Split
import Verif.Lemmas.Squeeze
import Verif.Lemmas.StationCodes
import Verif.Lemmas.StationRows
import Verif.Lemmas.StationText
import Verif.Lemmas.Stations
import Verif.Lemmas.Str
import Verif.Lemmas.Strike
import Verif.Lemmas.Strptime
import Verif.Lemmas.Sub
import Verif.Lemmas.Tables
import Verif.Lemmas.TafApart
import Verif.Lemmas.TafAttr
import Verif.Lemmas.TafLines
import Verif.Lemmas.TafRefusal
import Verif.Lemmas.TafSections
import Verif.Lemmas.Temperatures
import Verif.Lemmas.Times
import Verif.Lemmas.TrendCut
import Verif.Lemmas.TrendPeriods
import Verif.Lemmas.TrendTexts
import Verif.Lemmas.Trie
import Verif.Lemmas.VisForms
import Verif.Lemmas.Visibility
import Verif.Lemmas.Weather
import Verif.Lemmas.WeatherForms
import Verif.Lemmas.Wind
import Verif.Lemmas.WindForms
import Verif.Lemmas.Within
import Verif.Lemmas.YearMonth
import Verif.Props.Account
import Verif.Props.Alike
import Verif.Props.Ambiguity
import Verif.Props.Archive
import Verif.Props.AsText
import Verif.Props.Binary64
import Verif.Props.BodyAlone
import Verif.Props.Both
import Verif.Props.Bounds
import Verif.Props.Changes
import Verif.Props.ChangesText
import Verif.Props.Characters
import Verif.Props.CloudReports
import Verif.Props.Clouds
import Verif.Props.Codes
import Verif.Props.Compare
import Verif.Props.Complete
import Verif.Props.Conditions
import Verif.Props.Dict
import Verif.Props.Direction
import Verif.Props.Engine
import Verif.Props.Exceptions
import Verif.Props.Foreign
import Verif.Props.GroupList
import Verif.Props.GroupText
import Verif.Props.Indicators
import Verif.Props.Json
import Verif.Props.JsonParts
import Verif.Props.LeftOut
import Verif.Props.Length
import Verif.Props.Lines
import Verif.Props.Lists
import Verif.Props.Local
import Verif.Props.Main
import Verif.Props.Methods
import Verif.Props.Moved
import Verif.Props.Numerals
import Verif.Props.Output
import Verif.Props.Own
import Verif.Props.Parse
import Verif.Props.PatternText
import Verif.Props.Periods
import Verif.Props.Printing
import Verif.Props.Quantities
import Verif.Props.Rearranged
import Verif.Props.RecordText
import Verif.Props.Refusal
import Verif.Props.Remarks
import Verif.Props.Replace
import Verif.Props.Report
import Verif.Props.RoundGroups
import Verif.Props.RoundRuns
import Verif.Props.RoundTrip
import Verif.Props.RoundWords
import Verif.Props.Rules
import Verif.Props.Runway
import Verif.Props.Same
import Verif.Props.Sanitize
import Verif.Props.Sections
import Verif.Props.Setters
import Verif.Props.Shears
import Verif.Props.Split
import Verif.Props.Stations
import Verif.Props.Strike
import Verif.Props.Tables
import Verif.Props.TafBody
import Verif.Props.TafGlue
import Verif.Props.TafRecordText
import Verif.Props.TafRefusal
import Verif.Props.TafRoundTrip
import Verif.Props.TafRuns
import Verif.Props.TafSections
import Verif.Props.TafTotal
import Verif.Props.TafWords
import Verif.Props.Temperatures
import Verif.Props.Text
import Verif.Props.Time
import Verif.Props.Timeline
import Verif.Props.TrendRoundTrip
import Verif.Props.TrendWords
import Verif.Props.Units
import Verif.Props.UnitsBack
import Verif.Props.UnknownWord
import Verif.Props.Uses
import Verif.Props.Visibility
import Verif.Props.Weather
import Verif.Props.Wind
import Verif.Props.YearMonth
import Verif.Tests.Check
import Verif.Tests.Database
import Verif.Tests.MetarCloud
import Verif.Tests.MetarFlightRules
import Verif.Tests.MetarModifier
import Verif.Tests.MetarPressure
import Verif.Tests.MetarRecentWeather
import Verif.Tests.MetarRunwayRange
import Verif.Tests.MetarRunwayState
import Verif.Tests.MetarSeaState
import Verif.Tests.MetarSections
import Verif.Tests.MetarShouldBeCavok
import Verif.Tests.MetarStation
import Verif.Tests.MetarTemperatures
import Verif.Tests.MetarTime
import Verif.Tests.MetarType
import Verif.Tests.MetarUnparsedGroups
import Verif.Tests.MetarVisibility
import Verif.Tests.MetarWeather
import Verif.Tests.MetarWeatherTrendCloud
import Verif.Tests.MetarWeatherTrendIndicator
import Verif.Tests.MetarWeatherTrendVisibility
import Verif.Tests.MetarWeatherTrendWeather
import Verif.Tests.MetarWeatherTrendWind
import Verif.Tests.MetarWind
import Verif.Tests.MetarWindshear
import Verif.Tests.TafCancelled
import Verif.Tests.TafChangesChangeIndicators
import Verif.Tests.TafChangesCloud
import Verif.Tests.TafChangesVisibility
import Verif.Tests.TafChangesWeather
import Verif.Tests.TafChangesWind
import Verif.Tests.TafCloud
import Verif.Tests.TafFlightRules
import Verif.Tests.TafMainValidPeriod
import Verif.Tests.TafModifier
import Verif.Tests.TafNil
import Verif.Tests.TafSections
import Verif.Tests.TafStation
import Verif.Tests.TafTemperatures
import Verif.Tests.TafTime
import Verif.Tests.TafType
import Verif.Tests.TafVisibility
import Verif.Tests.TafWeather
import Verif.Tests.TafWind
