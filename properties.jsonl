{"id": "C01", "title": "White space layout of a report does not matter", "statement": "If a report is a sequence of words (non-empty, free of white space and of '='), then Metar(...) and Taf(...) give the same raw_code, namely the words joined by single blanks, whichever runs of blanks, newlines and tabs separate the words and whatever white space surrounds the text.", "quantifier": "for every list of words, every choice of separators (a run of blanks/newlines/tabs of any length between each pair) and every leading/trailing white space", "why_tests_cant": "the number of words, the separators and their lengths are unbounded", "anchors": ["aeromet_py/reports/models/base/report.py: Report.__init__", "aeromet_py/reports/models/base/report.py: Report.raw_code"]}
{"id": "C02", "title": "The end-of-message sign '=' is inert", "statement": "raw_code never contains '='; and a report text that does not end in white space is parsed to the same raw_code with and without a trailing '='.", "quantifier": "for every input text", "why_tests_cant": "all strings are quantified over", "anchors": ["aeromet_py/reports/models/base/report.py: Report.__init__", "aeromet_py/reports/models/base/report.py: Report.raw_code"]}
{"id": "C03", "title": "raw_code is a normal form", "statement": "For a text without '=', parsing the raw_code of a report again gives the same raw_code; raw_code contains no newline, no tab, no two adjacent white space characters, and no leading or trailing white space. (With '=' in the middle of the text this fails: 'A = B' keeps two adjacent blanks.)", "quantifier": "for every input text", "why_tests_cant": "all strings are quantified over", "anchors": ["aeromet_py/reports/models/base/report.py: Report.__init__", "aeromet_py/reports/models/base/report.py: Report.raw_code"]}
{"id": "C04", "title": "Only the empty text is rejected by assertion", "statement": "Metar(code) and Taf(code) raise AssertionError exactly when code is the empty string; none of the inner assertions (direction, speed and temperature code lengths, cardinal not None) can be triggered by any report text.", "quantifier": "for every report text, year, month, truncate flag and clock reading", "why_tests_cant": "absence of a failure over all texts cannot be sampled", "anchors": ["aeromet_py/reports/models/base/report.py: Report.__init__", "aeromet_py/reports/models/base/wind.py: Direction.__init__, Speed.__init__", "aeromet_py/reports/models/base/temperature.py: Temperature.__init__"]}
{"id": "C05", "title": "Every group is either decoded or reported as unparsed, exactly once", "statement": "When a section is parsed, each of its blank-separated groups is either consumed by exactly one handler or appears in the returned unparsed list; the unparsed list is exactly the non-consumed groups in their original order and with their multiplicities, also when equal groups are repeated.", "quantifier": "for every list of handlers (any patterns) and every section text", "why_tests_cant": "handler lists, group counts and repetitions are unbounded; list.remove deletes the first equal element, which is only right by an ordering argument", "anchors": ["aeromet_py/reports/models/base/__init__.py: parse_section"]}
{"id": "C06", "title": "Handlers fire at most once, in table order, first applicable wins", "statement": "Each group goes to the first handler, after the handler used last, whose pattern matches it; so the handlers fire in strictly increasing table order and none fires twice.", "quantifier": "for every list of handlers and every section text", "why_tests_cant": "unbounded inputs", "anchors": ["aeromet_py/reports/models/base/__init__.py: parse_section"]}
{"id": "C07", "title": "truncate only decides between an error and the same report", "statement": "With truncate=True the constructor raises ParserError exactly when the report parsed with truncate=False has a non-empty unparsed_groups; otherwise both constructions give the same report. With truncate=False ParserError is never raised. Any other exception is the same for both settings.", "quantifier": "for every text, year, month and clock", "why_tests_cant": "two-run (relational) statement over all inputs", "anchors": ["aeromet_py/reports/metar.py: Metar._parse_weather_trend", "aeromet_py/reports/taf.py: Taf._parse_changes_forecasted"]}
{"id": "C08", "title": "unparsed_groups of a report = body leftovers followed by the leftovers of every trend/change", "statement": "unparsed_groups of a Metar (Taf) is the concatenation, in order, of the unparsed groups of the body and the unparsed_groups of each weather trend (change forecasted).", "quantifier": "for every text that is parsed without exception", "why_tests_cant": "unbounded inputs", "anchors": ["aeromet_py/reports/metar.py: Metar._parse_body, _parse_weather_trend", "aeromet_py/reports/taf.py: Taf._parse_body, _parse_changes_forecasted"]}
{"id": "C09", "title": "METAR sections are cut at the trend and remark keywords without loss", "statement": "A text made of body words, then trend parts each opened by NOSIG/TEMPO/BECMG, then an optional remark opened by RMK (no other word starting with a keyword, no '|') is cut so that body, trend and remark are exactly those words joined by blanks.", "quantifier": "for every list of body words, every list of trend parts and every remark", "why_tests_cant": "unbounded lists of words", "anchors": ["aeromet_py/reports/metar.py: Metar._handle_sections", "aeromet_py/utils/split.py: split_sentence"]}
{"id": "C10", "title": "Shape of the METAR sections", "statement": "For any text whatsoever: body contains no blank followed by NOSIG, TEMPO, BECMG or RMK; trend is empty or starts with one of NOSIG/TEMPO/BECMG; remark is empty or starts with RMK; no section contains '|'.", "quantifier": "for every text", "why_tests_cant": "all strings", "anchors": ["aeromet_py/reports/metar.py: Metar._handle_sections, body, trend, remark"]}
{"id": "C11", "title": "TAF sections are cut at FM/TEMPO/BECMG/PROB without loss", "statement": "For a text without '|' and with no white space but blanks: body, and a blank and weather_changes when there are changes, spell the raw_code (reading '_' as a blank); every change code starts with FM, TEMPO, BECMG or PROB and holds no further one; in the body such a word follows a blank only after a word that ends with TAF. When the words of the text are a body and changes each opened by such a word (the first five pairs PROB30/PROB40 TEMPO counting as one word each), the sections are exactly these. (The stronger wording 'the body holds no opening word' is false, see the cases beside the theorem.)", "quantifier": "for every text without '|' and other white space; for every list of body words and list of changes", "why_tests_cant": "all strings, any number of changes", "anchors": ["aeromet_py/reports/taf.py: Taf._handle_sections"]}
{"id": "C12", "title": "TAF of stations whose ICAO code starts with FM", "statement": "In 'TAF FMxx ...' the station group stays the second word of the body. With a modifier, 'TAF AMD FMxx ...', the text is cut at the station: the body is only 'TAF AMD' and the station is lost, so the unrestricted claim is false.", "quantifier": "for every list of words that follows", "why_tests_cant": "unbounded continuation", "anchors": ["aeromet_py/reports/taf.py: Taf._handle_sections"]}
{"id": "C13", "title": "The time group gives the stated day, hour and minute in the requested year and month", "statement": "A group DDHHMMZ in a report constructed with year in 1000..9999 and month in 1..12 gives a report time with exactly that year, month, day, hour and minute when that is an existing calendar date and hour is not 24; otherwise construction raises ValueError. Without a year or month argument those of the clock apply.", "quantifier": "for every day 01-31, hour 00-24, minute 00-59, year, month", "why_tests_cant": "the date arithmetic is over all years and includes leap years; tests sample a few dates", "anchors": ["aeromet_py/reports/models/base/time.py: Time, Time.from_metar", "aeromet_py/utils/metar_regexp.py: TIME"]}
{"id": "C14", "title": "Every report time is a valid calendar date-time", "statement": "Whatever the input, every time exposed by a constructed report (time, valid, change periods, trends, temperature times) has month 1..12, day within the month, hour 0..23, minute 0..59 and year 1..9999.", "quantifier": "for every text, year, month, clock", "why_tests_cant": "invariant over all inputs", "anchors": ["aeromet_py/reports/models/base/time.py", "aeromet_py/reports/models/taf/valid.py", "aeromet_py/reports/models/taf/change_indicator.py", "aeromet_py/reports/models/taf/temperature.py", "aeromet_py/reports/models/metar/trend_indicator.py"]}
{"id": "C15", "title": "With year and month given, a report does not depend on the clock", "statement": "Metar(code, year, month) gives the same report or the same exception at any wall-clock time. Taf(code, year, month) does so when its body has a time group and a validity group; without a time group its time is the first day of the current month whatever year and month were given, and without a validity group its default validity follows the clock even though the report has a time.", "quantifier": "for every text, year, month and every two clocks (of existing months of four digit years)", "why_tests_cant": "two-run statement over all inputs and all clock readings", "anchors": ["aeromet_py/reports/metar.py: Metar.__init__", "aeromet_py/reports/taf.py: Taf.__init__", "aeromet_py/reports/models/base/time.py: Time.__init__", "aeromet_py/reports/models/taf/valid.py: TafValidMixin"]}
{"id": "C16", "title": "Wind group in knots", "statement": "A wind group dddff(f)(Gff(f))KT gives the direction ddd in degrees, the speed and the gust as exactly the stated numbers of knots; '///' or '//' give None, VRB gives variable and no direction; a missing gust gives None.", "quantifier": "for every direction, speed and gust the grammar admits", "why_tests_cant": "10^7 groups; and digits may be any Unicode decimal digits", "anchors": ["aeromet_py/reports/models/metar/wind.py: MetarWind", "aeromet_py/reports/models/base/wind.py: Direction, Speed"]}
{"id": "C17", "title": "Wind group in metres per second is converted to knots", "statement": "A wind group in MPS gives speed and gust in knots equal to the stated number divided by 0.51444444 up to a relative error below 1e-14; missing values stay None.", "quantifier": "for every speed and gust the grammar admits", "why_tests_cant": "floating point rounding for all values", "anchors": ["aeromet_py/reports/models/metar/wind.py: MetarWind", "aeromet_py/reports/models/base/wind.py: Wind._mps2kt"]}
{"id": "C18", "title": "Cardinal direction is the 22.5-degree sector that contains the direction", "statement": "For every direction value in [0,360] cardinal is the unique compass point whose sector of width 22.5 degrees centred on it contains the value; a missing direction has no cardinal.", "quantifier": "for every binary64 direction in [0,360]", "why_tests_cant": "continuum of values; boundaries between sectors", "anchors": ["aeromet_py/reports/models/base/wind.py: Direction.cardinal, COMPASS_DIRS"]}
{"id": "C19", "title": "Cardinal codes round-trip", "statement": "Direction.from_cardinal(c).cardinal == c for each of the 16 compass points; any other string raises ValueError.", "quantifier": "for every string", "why_tests_cant": "every string that is not a compass point must be rejected", "anchors": ["aeromet_py/reports/models/base/wind.py: Direction.from_cardinal"]}
{"id": "C20", "title": "Wind variation group", "statement": "A group dddVddd gives both directions in degrees exactly.", "quantifier": "for every pair of directions 010..360", "why_tests_cant": "1296 pairs times Unicode digits", "anchors": ["aeromet_py/reports/models/metar/wind_variation.py: MetarWindVariation"]}
{"id": "C21", "title": "Visibility in metres", "statement": "A visibility group of four digits gives that number of metres, except 9999 which gives 10000; '////' gives None; a one- or two-letter compass suffix gives the compass direction.", "quantifier": "for every four digit group and suffix", "why_tests_cant": "10^4 times 12 groups", "anchors": ["aeromet_py/reports/models/metar/visibility.py: MetarPrevailingVisibility, MetarMinimumVisibility", "aeromet_py/reports/models/base/distance.py: Distance"]}
{"id": "C22", "title": "Visibility in statute miles", "statement": "A group in SM with integer part n and/or fraction a/b gives (n + a/b) * 1852 metres up to a relative error below 1e-14.", "quantifier": "for every n in 0..99 (or none) and every a, b in 0..9 with b != 0", "why_tests_cant": "floating point rounding for all values", "anchors": ["aeromet_py/reports/models/metar/visibility.py: _from_sea_miles"]}
{"id": "C23", "title": "Visibility in kilometres and CAVOK", "statement": "nKM gives exactly 1000 n metres; CAVOK gives 10000 metres and cavok True, and cavok is True for no other group.", "quantifier": "for every group", "why_tests_cant": "all strings", "anchors": ["aeromet_py/reports/models/metar/visibility.py: MetarPrevailingVisibility"]}
{"id": "C24", "title": "Which visibility groups crash the parser", "statement": "A group accepted as METAR prevailing visibility raises an exception exactly when its suffix is EE, EW, WE or WW (ValueError), or it is in KM with a fraction and no integer (TypeError), or in SM with denominator 0 (ZeroDivisionError).", "quantifier": "for every string", "why_tests_cant": "exact characterisation over all strings", "anchors": ["aeromet_py/reports/models/metar/visibility.py: MetarPrevailingVisibility", "aeromet_py/reports/models/base/wind.py: from_cardinal"]}
{"id": "C25", "title": "Runway visual range", "statement": "A runway range group gives the runway name, the low and high ranges in metres (exactly when given in metres, up to relative error 1e-15 when in FT), the M/P limits and the tendency.", "quantifier": "for every group the grammar admits", "why_tests_cant": "10^8 groups", "anchors": ["aeromet_py/reports/models/metar/runway_range.py: MetarRunwayRange, set_runway_name"]}
{"id": "C26", "title": "Weather groups", "statement": "A weather group made of an optional intensity, optional descriptor and at most one phenomenon is decoded to the table descriptions of exactly those parts and None for the absent ones.", "quantifier": "for every combination and for every string", "why_tests_cant": "exact language of a regular expression over all strings", "anchors": ["aeromet_py/reports/models/metar/weather.py: MetarWeather"]}
{"id": "C27", "title": "Cloud layers", "statement": "A cloud group gives the cover and oktas of its code, the cloud type, and a base height of 100*h feet: height_in_meters is within 1e-9 m of 30.48*h and height_in_feet within 1e-8 of 100*h; undefined heights give None.", "quantifier": "for every cover, height 000-999 and type", "why_tests_cant": "float formatting with ten decimals and re-parsing for all heights", "anchors": ["aeromet_py/reports/models/base/cloud.py: Cloud.from_metar"]}
{"id": "C28", "title": "Ceiling", "statement": "ceiling is True exactly when some layer is BKN or OVC with base at or below 1500 feet, when no BKN/OVC layer before it lacks a height; a BKN/OVC layer without height reached first makes it raise TypeError. The layers of a METAR, trend, TAF or TAF change are those of its decoded cloud groups.", "quantifier": "for every list of layers and for every constructed report", "why_tests_cant": "lists of layers and boundary rounding at exactly 1500 ft", "anchors": ["aeromet_py/reports/models/base/cloud.py: CloudList.ceiling"]}
{"id": "C29", "title": "Flight rules", "statement": "flight_rules is the first category in the order VLIFR, LIFR, IFR, MVFR, VFR whose ceiling bound (60, 150, 300, 900, 40000 m) exceeds the base of the first BKN/OVC/VV layer or whose visibility bound (800, 1600, 5000, 8000, 20000 m) exceeds the prevailing visibility. (A report with visibility of 20 km or more and no ceiling gets None rather than VFR: the claim 'None only when there is no data' is false.)", "quantifier": "for every visibility and list of clouds", "why_tests_cant": "all pairs of reals and all layer lists", "anchors": ["aeromet_py/reports/models/base/flight_rules.py: FlightRulesMixin.flight_rules"]}
{"id": "C30", "title": "Flight rules are monotone", "statement": "Lowering the visibility or the ceiling never improves the category.", "quantifier": "for every pair of conditions", "why_tests_cant": "two-run statement over all values", "anchors": ["aeromet_py/reports/models/base/flight_rules.py"]}
{"id": "C31", "title": "should_be_cavok", "statement": "On a freshly parsed report should_be_cavok() is True exactly when there is no weather group, no ceiling, a visibility of at least 10 km is given, at least one cloud group is given, no layer is CB or TCU, every layer with a height is at or above 5000 ft, and every BKN or OVC layer has a height. (VV layers are compared with 'is', whose outcome on equal texts Python leaves open: if it is True there must also be no VV layer.)", "quantifier": "for every list of layers, weathers, visibility", "why_tests_cant": "unbounded combinations and rounding at 5000 ft", "anchors": ["aeromet_py/reports/models/metar/should_be_cavok.py: should_be_cavok", "aeromet_py/reports/models/base/cloud.py"]}
{"id": "C32", "title": "Asking should_be_cavok twice", "statement": "If should_be_cavok() returns True on a freshly parsed report, the report is left exactly as it was, so asking again returns True again. The answer False is not stable: the early exit leaves the cursor of the clouds list in the middle, so a report with a single FEW030 layer answers False, True, False, ..., and iterating the clouds after the first answer skips layers.", "quantifier": "for every report", "why_tests_cant": "history-dependent behaviour; tests call it once", "anchors": ["aeromet_py/reports/models/metar/should_be_cavok.py", "aeromet_py/reports/models/base/group.py: GroupList.__next__"]}
{"id": "C33", "title": "Temperatures", "statement": "A temperature group gives temperature and dew point as the nearest double to the signed stated number of degrees, '//', 'XX' and 'MM' give None.", "quantifier": "for every sign and number", "why_tests_cant": "all groups, Unicode digits, negative zero", "anchors": ["aeromet_py/reports/models/metar/temperatures.py: MetarTemperatures", "aeromet_py/reports/models/base/temperature.py"]}
{"id": "C34", "title": "Pressure", "statement": "Qnnnn gives exactly nnnn hPa; Annnn gives nnnn/100 inches of mercury converted with 0.02953 within 1e-9 hPa; missing values give None. (A bare number above 2500 is divided by 0.02953 without division by 100, giving pressures above 84000 hPa.)", "quantifier": "for every four digits", "why_tests_cant": "float formatting and re-parsing for all values", "anchors": ["aeromet_py/reports/models/metar/pressure.py: MetarPressure"]}
{"id": "C35", "title": "Wind shear groups", "statement": "WS RWYnnX / WS RnnX groups give the runway name, WS ALL RWY, if it is the only such group, gives all_runways and no names; otherwise names lists exactly the runways of the groups in order.", "quantifier": "for every list of up to three runways", "why_tests_cant": "rewriting of the text by several passes", "anchors": ["aeromet_py/reports/models/metar/windshear.py", "aeromet_py/utils/parser.py: sanitize_windshear"]}
{"id": "C36", "title": "Sea state group", "statement": "Wtt/Ss and Wtt/Hhhh give temperature, state description and wave height hhh/10 metres.", "quantifier": "for every temperature, state, height", "why_tests_cant": "all groups", "anchors": ["aeromet_py/reports/models/metar/sea_state.py"]}
{"id": "C37", "title": "Runway state group", "statement": "A runway state group decodes deposit, contamination, depth and friction by the WMO tables, with depths 01..90 in mm and friction 00..90 as 0.xx, SNOCLO and CLRD flagged.", "quantifier": "for every group the grammar admits", "why_tests_cant": "10^8 groups", "anchors": ["aeromet_py/reports/models/metar/runway_state.py"]}
{"id": "C38", "title": "Recent weather group", "statement": "RExx groups are decoded to the table descriptions of their parts.", "quantifier": "for every string", "why_tests_cant": "exact language over all strings", "anchors": ["aeromet_py/reports/models/metar/recent_weather.py"]}
{"id": "C39", "title": "Bounded lists never exceed their capacity", "statement": "After any sequence of operations a GroupList holds at most max_items groups; add on a full list raises RangeError and leaves the list unchanged; add on a non-full list appends.", "quantifier": "for every sequence of operations", "why_tests_cant": "all histories", "anchors": ["aeromet_py/reports/models/base/group.py: GroupList"]}
{"id": "C40", "title": "Iteration over a GroupList", "statement": "Iterating a list from the reset state yields every group once in order and leaves it reset, so complete iterations can be repeated; an abandoned iteration is resumed by the next one instead of starting over.", "quantifier": "for every list and every number of steps", "why_tests_cant": "all histories", "anchors": ["aeromet_py/reports/models/base/group.py: GroupList.__iter__, __next__"]}
{"id": "C41", "title": "as_dict of a list keeps every group under its own ordinal label", "statement": "GroupList.as_dict() has one entry per group, with distinct labels first..tenth in order (the ninth label is spelt 'nineth'). The lists of a constructed METAR or TAF never outgrow the capacities of the source (3 runway ranges, weathers and wind shears, 4 clouds, 2 trends; 2 maximum and 2 minimum temperatures, 8 changes), so they cannot run out of labels.", "quantifier": "for every list up to the capacity, and for the lists of every constructed report", "why_tests_cant": "all lists", "anchors": ["aeromet_py/reports/models/base/group.py: GroupList.as_dict"]}
{"id": "C42", "title": "Trend periods lie in the two-hour window", "statement": "In a METAR trend, FMhhmm/TLhhmm/AThhmm with hh:mm inside the two hours after the report time denote the unique instant of the window [report, report+2h] with that clock time; the last group of each kind counts and without them the period is the whole window. Outside the window a clock time is not refused: the minutes are taken in the hour of the report if that hour is named, in the next hour if that one is named, and otherwise, whatever hour is named, in the second next hour. (Hour 24 is accepted but never resolved to midnight.)", "quantifier": "for every report time (all dates) and every hh:mm in the window", "why_tests_cant": "date arithmetic across midnight, month and year ends", "anchors": ["aeromet_py/reports/models/metar/trend_indicator.py: MetarTrendIndicator.add_period"]}
{"id": "C43", "title": "TAF valid period", "statement": "For a valid group dd1hh1/dd2hh2 whose days are the day of issue or the day after, period_from and period_until are the stated instants, with hour 24 meaning midnight at the end of the day; the same holds for the period of a TAF change relative to the start of the validity. Any day other than the day of issue is taken as the day after it. (So if the until day is two days after the issue, the library returns the day after: the unrestricted claim is false.)", "quantifier": "for every issue time and every group", "why_tests_cant": "date arithmetic over all dates", "anchors": ["aeromet_py/reports/models/taf/valid.py: Valid.from_taf"]}
{"id": "C44", "title": "Default TAF validity", "statement": "Valid.from_taf without a match starts one hour after the hour of the time it is given and lasts 24 hours. A TAF without a valid group gets the period from 01:00 of the first day of the current month, not from its time of issue (so the claim 'one hour after the issue hour' is false of reports).", "quantifier": "for every issue time", "why_tests_cant": "date arithmetic over all dates", "anchors": ["aeromet_py/reports/models/taf/valid.py: Valid.from_taf"]}
{"id": "C45", "title": "FM change groups get the first matching day on or after the start of validity", "statement": "FMddhhmm resolves to the first date not before the day the TAF validity starts whose day of month is dd, at hh:mm; the search always ends, except by OverflowError at the end of year 9999.", "quantifier": "for every start of validity and every dd, hh, mm", "why_tests_cant": "termination of a loop over dates", "anchors": ["aeromet_py/reports/models/taf/change_indicator.py: TafChangeIndicator.__init__"]}
{"id": "C46", "title": "Adding a TAF change keeps the list and closes the previous FM period", "statement": "Adding a change appends it and keeps all previous changes in order; if it is an FM or BECMG change, the last change that is not PROB/TEMPO, if it is FM, gets its until time set to one hour before the start of the new change, and nothing else changes.", "quantifier": "for every list of previous changes", "why_tests_cant": "unbounded histories; the code pops and re-adds elements", "anchors": ["aeromet_py/reports/models/taf/change_forecast.py: TafChangesForecasted.add"]}
{"id": "C47", "title": "TAF temperatures", "statement": "TXnn/ddhhZ goes to max_temperatures and TNnn/ddhhZ to min_temperatures in order, with the stated value and the stated instant when dd is the day of issue or the next one.", "quantifier": "for every list of groups and issue time", "why_tests_cant": "unbounded", "anchors": ["aeromet_py/reports/models/taf/temperature.py", "aeromet_py/reports/taf.py: _handle_temperature"]}
{"id": "C48", "title": "NIL and CNL", "statement": "missing.is_missing is True exactly when a NIL group was consumed, cancelled.is_cancelled exactly when a CNL group was consumed.", "quantifier": "for every text", "why_tests_cant": "all strings", "anchors": ["aeromet_py/reports/models/taf/missing.py", "aeromet_py/reports/models/taf/cancelled.py"]}
{"id": "C49", "title": "Unit conversions", "statement": "Every in_<unit> property is None exactly when the value is None. For the units with an exact ratio the result differs from the exact conversion by a relative error below 1e-15; for the units converted with a rounded factor it differs from the exact conversion by no more than the accuracy of that factor; temperatures a*t+b are within 1e-15*(a|t|+b). All conversions are monotone.", "quantifier": "for every value", "why_tests_cant": "all doubles", "anchors": ["aeromet_py/utils/conversions.py: Conversions", "aeromet_py/reports/models/base/numeric.py: converted"]}
{"id": "C50", "title": "Round trip of a canonical METAR", "statement": "Rendering any METAR record (type, station, time, modifier, wind, variation, visibility, minimum visibility, up to three runway ranges, up to three weather groups, up to four cloud layers, temperatures, up to two pressures, recent weather, up to three wind shears, sea state, runway state; each optional part present or absent), with a remark or without, in any white-space layout, and parsing it raises nothing and gives a report whose every attribute states what the record states (of two pressures the last), with no trend and no unparsed group. Conditions on the record: the station does not begin with RMK, the visibility is one the library can convert, a pressure without unit follows temperatures, a visibility of two words is not the last group. Without each of the conditions on station, pressure and two-word visibility the claim fails.", "quantifier": "for every record, every remark, every layout of white space, every sane clock, year from 1000 and month", "why_tests_cant": "product of all groups, present or absent, with unbounded Unicode digit spellings", "anchors": ["aeromet_py/reports/metar.py: Metar"]}
{"id": "C51", "title": "Round trip of a canonical TAF", "statement": "Rendering any TAF record (modifier, station, time, NIL, period, CNL, wind, visibility, up to three weather groups, up to four cloud layers, up to two maximum and two minimum temperatures in any order, and up to eight changes TEMPO, BECMG, PROB30/40, PROB30/40 TEMPO or FM, each with its period and conditions), in any white-space layout, and parsing it raises nothing and gives a report whose every attribute states what the record states, with no unparsed group. Every change begins and ends when its period says, an FM change begins at its instant and lasts until one hour before the next FM or BECMG change or else as long as the report, and any other change without period has the period of the report. Conditions on the record: no station that opens a change or is cut after AMD/COR, a weather group beginning with M or U only after a visibility, a two-word visibility not last, at most five PROB TEMPO pairs, no bare PROB, changes only with a report period. Without each of five of these conditions the claim fails.", "quantifier": "for every record, every layout of white space, every sane clock, year from 1000 to 9997 and month", "why_tests_cant": "product of all groups and unbounded change histories with Unicode digit spellings", "anchors": ["aeromet_py/reports/taf.py: Taf"]}
{"id": "C52", "title": "Which exceptions a constructor can raise", "statement": "Metar(...) and Taf(...) raise only exceptions from a fixed list (AssertionError, ParserError, ValueError, TypeError, ZeroDivisionError, RangeError, OverflowError, and for TAF AttributeError), each of which is raised for some text; IndexError and KeyError are never raised.", "quantifier": "for every text", "why_tests_cant": "absence over all inputs", "anchors": ["aeromet_py/reports/metar.py: Metar", "aeromet_py/reports/taf.py: Taf"]}
{"id": "C53", "title": "The code of a decoded group is the text of the group", "statement": "The code property of every decoded group equals the group of the section that was consumed, with '_' shown as a blank; the code of a change indicator is the indicator group followed by its period groups, and the code of an FM indicator is the group as it stands.", "quantifier": "for every text", "why_tests_cant": "all strings", "anchors": ["aeromet_py/reports/models/base/group.py: Group.code"]}
{"id": "C54", "title": "Station lookup", "statement": "The station group exposes the first row of the stations table with that ICAO code, or None for every attribute when there is none; the ICAO attribute then equals the code.", "quantifier": "for every code and table", "why_tests_cant": "all tables and codes", "anchors": ["aeromet_py/reports/models/base/station.py: Station"]}
{"id": "C55", "title": "Sanitising only joins words", "statement": "sanitize_visibility joins the leftmost whole number and fraction of miles, three times at most; sanitize_windshear joins every 'WS ALL RWY' and then the leftmost 'WS R(WY)', three times at most; sanitize_change_indicator joins the leftmost PROB30/PROB40 and TEMPO, five times at most. Nothing else changes: texts without the split groups are unchanged, and apart from white space, '_' and (for wind shear) the optional 'WY' the characters are the same. On a text of words the result is the text of the joined words.", "quantifier": "for every text", "why_tests_cant": "all strings", "anchors": ["aeromet_py/utils/parser.py"]}
{"id": "C56", "title": "str() of a report lists the decoded groups in order", "statement": "str(report) consists of one line for each decoded group of the body, in the order of the attributes, each the str() of the attribute the report holds (of two pressure groups both are shown), followed by the text of each trend or change. The text of a METAR trend introduced by TEMPO, BECMG or NOSIG is its indicator with the finally decoded period and one line for each other group. (False of the library: a trend introduced by another accepted word such as TEMPOX repeats its period; a TAF shows of each change only the indicator, with the end an FM change had before a later change cut it short.)", "quantifier": "for every text of a constructed report", "why_tests_cant": "all strings", "anchors": ["aeromet_py/reports/models/base/string_attribute.py"]}
{"id": "C57", "title": "Types and modifiers always have a description", "statement": "Every group accepted as report type or modifier has a non-None description.", "quantifier": "for every string", "why_tests_cant": "all strings", "anchors": ["aeromet_py/reports/models/base/type.py", "aeromet_py/reports/models/base/modifier.py"]}
{"id": "C58", "title": "Remarks do not influence the decoded data", "statement": "Appending a remark (a word starting with 'RMK' followed by words that do not start with a trend keyword or RMK) to any METAR text changes only raw_code and the remark section of the report; a text that is refused is refused with the same exception, up to the code quoted in the ParserError message.", "quantifier": "for every METAR text and every remark", "why_tests_cant": "two-run statement over all texts", "anchors": ["aeromet_py/reports/metar.py: Metar._handle_sections"]}
{"id": "C59", "title": "An unknown word is only reported", "statement": "Without truncation: if one more word, matched by no handler, is written anywhere in the body of a METAR or TAF, the report has the same decoded data, texts of the other sections, trends and changes; only its code, its body and the list of unparsed groups differ, and the latter is the old one with the word inserted. A report that was refused is refused with the same exception. The same holds of a word in a trend and in a change. (The word must not be joined with a neighbour by the preparation of the text, nor open a section.)", "quantifier": "for every report text made of words, every place in the body, every word that matches no handler, every clock and station table", "why_tests_cant": "two-run statement over all texts", "anchors": ["aeromet_py/reports/models/base/__init__.py: parse_section", "aeromet_py/reports/metar.py: Metar.__init__", "aeromet_py/reports/taf.py: Taf.__init__", "aeromet_py/reports/models/metar/weather_trend.py: ChangePeriod", "aeromet_py/reports/models/taf/change_forecast.py: ChangeForecasted"]}
{"id": "C60", "title": "as_dict mirrors the attributes", "statement": "as_dict() of a constructed report never raises, and its leaves are exactly the attributes of the report, each at the path given by a flat table of keys: the lists of the report under ordinal labels, those of trends and changes by index. (The dictionary of a pressure has no code, that of a TAF temperature the code of its time, which is None, and those of trends and changes contain neither the indicator nor the unparsed groups.)", "quantifier": "for every constructed METAR and TAF", "why_tests_cant": "all reports", "anchors": ["aeromet_py/reports/metar.py: Metar.as_dict", "aeromet_py/reports/taf.py: Taf.as_dict"]}
{"id": "C61", "title": "Text of a wind", "statement": "str() of the object decoded from a wind group is: the compass point and the degrees in brackets (or 'variable wind', or nothing when unknown), the speed in knots with one decimal and ' kt', and ' gust of ' with the gust, separated by single blanks; metres per second are shown converted, within half a decimal. A wind variation is shown as 'from <point> (<degrees>) to <point> (<degrees>)'. (Finding: zero values lose their unit and brackets, and a gust of zero is not shown.)", "quantifier": "for every wind group of the grammar, and for the wind of every constructed METAR, trend, TAF and change", "why_tests_cant": "all spellings of the groups, including all Unicode digits", "anchors": ["aeromet_py/reports/models/metar/wind.py: MetarWind.__str__", "aeromet_py/reports/models/metar/wind_variation.py: MetarWindVariation.__str__"]}
{"id": "C62", "title": "Text of visibilities and runway visual ranges", "statement": "str() of a visibility is the kilometres with one decimal followed by ' km' and, if a direction is given, ' to <point> (<degrees>)'; CAVOK reads 'Ceiling and Visibility OK'. str() of a runway visual range gives the runway, the limits and metres of both values, and the tendency. (Finding: an upper value of zero is not shown.)", "quantifier": "for every group of the grammar, and for the groups of every constructed METAR, trend, TAF and change", "why_tests_cant": "all spellings of the groups", "anchors": ["aeromet_py/reports/models/metar/visibility.py: __str__", "aeromet_py/reports/models/metar/runway_range.py: MetarRunwayRange.__str__"]}
{"id": "C63", "title": "Text of weather groups", "statement": "str() of a weather group is the descriptions of intensity, descriptor, precipitation, obscuration and other weather, those present, in this order, separated by single blanks; recent weather is shown the same way without intensity.", "quantifier": "for every group of the grammar, and for the groups of every constructed METAR, trend, TAF and change", "why_tests_cant": "all combinations of the parts", "anchors": ["aeromet_py/reports/models/metar/weather.py: MetarWeather.__str__", "aeromet_py/reports/models/metar/recent_weather.py: MetarRecentWeather.__str__"]}
{"id": "C64", "title": "Text of clouds", "statement": "str() of a cloud group is the cover, ' at ' the height in feet, which is exactly 100 times the reported digits although it is stored in metres, and ' of ' the type. (Finding: a layer at height zero is shown 'at undefined height', and the type is not shown without a height.)", "quantifier": "for every cloud group of the grammar, and for the clouds of every constructed METAR, trend, TAF and change", "why_tests_cant": "all three-digit heights in all digit alphabets, conversion to metres and back", "anchors": ["aeromet_py/reports/models/base/cloud.py: Cloud.__str__"]}
{"id": "C65", "title": "Text of temperatures and pressures", "statement": "str() of a temperature group is 'temperature: <t>\u00b0C | dewpoint: <d>\u00b0C' with sign and one decimal, or that one of them is missing; str() of a pressure is hectopascals with one decimal, also for inches of mercury. (Findings: zero has no unit, M00 is shown '-0.0', an unknown temperature is left blank beside a dew point of zero.)", "quantifier": "for every group of the grammar, and for the groups of every constructed METAR", "why_tests_cant": "all spellings of the groups", "anchors": ["aeromet_py/reports/models/metar/temperatures.py: MetarTemperatures.__str__", "aeromet_py/reports/models/base/pressure.py: Pressure.__str__"]}
{"id": "C66", "title": "Text of wind shear, sea and runway state", "statement": "str() of a wind shear group names the runway or 'all', str() of a sea state group gives temperature, significant wave height and state of the sea, str() of a runway state group gives runway, deposits, depth, contamination and friction, each as the group says. (Finding: a sea temperature or wave height of zero is shown as missing.)", "quantifier": "for every group of the grammar, and for the groups of every constructed METAR", "why_tests_cant": "all spellings of the groups", "anchors": ["aeromet_py/reports/models/metar/windshear.py: __str__", "aeromet_py/reports/models/metar/sea_state.py: __str__", "aeromet_py/reports/models/metar/runway_state.py: __str__"]}
{"id": "C67", "title": "Round trip of a METAR with trends", "statement": "Rendering any METAR record followed by at most two trends (NOSIG, TEMPO or BECMG, each with up to two periods FM, TL or AT within the two hours of the report, wind, visibility, up to three weather groups and up to four cloud layers), with a remark or without, in any white-space layout, and parsing it raises nothing and gives a report whose body states what the record states and whose trends state, one by one and in order, what the trends of the record state: opening, code, instants of the periods, conditions; no group is left unparsed. Conditions: those of the record, the second trend is neither NOSIG nor bare. Without them the claim fails: three trends raise RangeError, and a second NOSIG or bare TEMPO stays unparsed in the first trend.", "quantifier": "for every record, every list of trends, every remark, every layout of white space, every sane clock, year from 1000 to 9998 and month", "why_tests_cant": "product of all groups of the body and of the trends with unbounded digit spellings and layouts", "anchors": ["aeromet_py/reports/metar.py: Metar", "aeromet_py/reports/models/metar/weather_trend.py: ChangePeriod", "aeromet_py/utils/split.py: split_sentence"]}
{"id": "C68", "title": "Text of a METAR written from a record", "statement": "str() of the report parsed from the text of a METAR record with trends is one line for each group, in the order of the code and each saying what the group states: the name of the report type, the row of the station, the instant of the report, the modifier, wind, variation, visibilities, runway ranges, weather, clouds, temperatures, pressures, recent weather, wind shear, sea and runway state, then for each trend its meaning with the instants AT, or FM and TL (the time of the report and two hours later when not stated), and its conditions; only white space at the ends is removed.", "quantifier": "for every record, every list of trends, every remark, every layout of white space, every station table, every sane clock, year from 1000 to 9998 and month", "why_tests_cant": "product of all groups of the body and of the trends with unbounded digit spellings", "anchors": ["aeromet_py/reports/metar.py: Metar", "aeromet_py/reports/models/base/string_attribute.py", "aeromet_py/reports/models/metar/weather_trend.py: ChangePeriod.__str__"]}
{"id": "C69", "title": "Text of a TAF written from a record", "statement": "str() of the report parsed from the text of a TAF record is one line for each group of the body, in the order of the text and each saying what the group states (report type, modifier, station, instant, NIL, period, CNL, wind, visibility, weather, clouds, temperatures with their instants), then for each change its meaning and period followed by an empty line; only white space at the ends is removed. (Findings: the conditions of a change are not shown, and an FM change is shown as lasting until the end of the report even if a later change ends it.)", "quantifier": "for every record, every layout of white space, every station table, every sane clock, year from 1000 to 9997 and month", "why_tests_cant": "product of all groups of the body and of the changes with unbounded digit spellings", "anchors": ["aeromet_py/reports/taf.py: Taf", "aeromet_py/reports/models/base/string_attribute.py", "aeromet_py/reports/models/taf/change_indicator.py: TafChangeIndicator", "aeromet_py/reports/models/taf/temperature.py: TafTemperature.__str__"]}
{"id": "C70", "title": "JSON text of a report", "statement": "to_json() of a report is printable ASCII on one line, and a reader written from RFC 8259 reads from it exactly the dictionary as_dict() gives: every string character for character, every number as the same double (also -0.0), every entry in its order. Hence reports with equal JSON texts have equal values. Condition: text and tables are Unicode text; a string with a surrogate pair is written like the character the pair stands for.", "quantifier": "for every text of Unicode characters on which the constructor succeeds, every station table, clock and arguments; the round trip also for every value of nested dictionaries, lists, strings and doubles", "why_tests_cant": "all doubles and all strings of Unicode; shortest decimal representation of every double", "anchors": ["aeromet_py/reports/models/base/report.py: Report.to_json", "aeromet_py/reports/models/base/group.py: Group.to_json"]}
{"id": "C71", "title": "What a dictionary is made of", "statement": "In the dictionary of a constructed report every number is a finite binary64 number and every character outside ASCII comes from the text of the report or from the tables of stations and countries: decoding introduces no other text.", "quantifier": "for every text on which the constructor succeeds, every station table, clock and arguments", "why_tests_cant": "all Unicode texts, including digits outside ASCII that the patterns accept", "anchors": ["aeromet_py/reports/models/base/report.py: Report.as_dict", "aeromet_py/reports/metar.py: Metar.as_dict", "aeromet_py/reports/taf.py: Taf.as_dict"]}
{"id": "C72", "title": "The stations of the library", "statement": "In the table of stations that comes with the library every ICAO code is missing or four capital letters or digits, and no two rows share an ICAO code or a SYNOP code; latitudes, longitudes (except that of CYYW) and elevations are well formed and on Earth. A station is therefore found by its ICAO code or SYNOP code as the one row that has it, and the country shown is the one name of its country code (none for CS, DN, TP and AN). A METAR or TAF that carries the ICAO code of any row is read as a report of exactly that row, and no report shows a row without ICAO code. IATA codes do not have this: PVG shows a station in Virginia, not Shanghai.", "quantifier": "for every row of the table of 9390 stations, every text on which a constructor succeeds, every record of any of these stations, every clock and arguments", "why_tests_cant": "9390 stations times all reports; the tests look up a handful of stations", "anchors": ["aeromet_py/database/stations.py: STATIONS", "aeromet_py/database/countries.py: COUNTRIES", "aeromet_py/reports/models/base/station.py: Station"]}
{"id": "C73", "title": "Which reports are refused, and with which exception", "statement": "Whether the constructor of METAR raises, and what, can be read off the groups of the text: the first group of the body that is refused decides (ValueError for a time that is no date, the exceptions of visibility groups); then, trend by trend, OverflowError if there is no date two hours after the report, TypeError for a period in a trend without indicator, the exceptions of visibility groups; RangeError for a third trend, after it has been read. For TAF the same holds with RangeError for a third highest or lowest temperature, then, change by change, AttributeError for a period in a change without indicator, the exceptions of visibility groups, AttributeError when a change that begins a period looks back over PROB and TEMPO and meets one without indicator, and RangeError for a ninth change. Nothing else makes the constructors raise, and they do not raise otherwise.", "quantifier": "for every text, every station table, every sane clock, every year from 1000 to 9999 (9998 for TAF) and month given or taken from the clock", "why_tests_cant": "all texts: the order in which faults of several groups meet decides which exception is seen", "anchors": ["aeromet_py/reports/metar.py: Metar.__init__", "aeromet_py/reports/models/base/__init__.py: parse_section", "aeromet_py/reports/models/metar/weather_trend.py: ChangePeriod", "aeromet_py/reports/models/base/group.py: GroupList.add", "aeromet_py/reports/taf.py: Taf.__init__", "aeromet_py/reports/models/taf/change_forecast.py: ChangeForecasted, TafChangesForecasted.add"]}
{"id": "C74", "title": "What the use of a report changes", "statement": "However a constructed report is used (iterating over its lists, should_be_cavok(), as_dict(), to_json(), str(), on the report and on its trends or changes), all its data stay as they were constructed; only the positions of the iterators of its lists change, and the text buffers of the changes of a TAF. Its text, flight rules and ceiling stay the same and as_dict() never raises. as_dict() shows of each trend or change only the weathers and clouds its iterators have not passed yet, and rewinds them, so that the next as_dict() is complete. If no trend or change is asked should_be_cavok() or iterated by hand, as_dict() always gives the same. (The unrestricted claim is false: after should_be_cavok() on a trend, as_dict() of the METAR loses clouds of the trend.)", "quantifier": "for every constructed METAR and TAF and every sequence of uses", "why_tests_cant": "all histories of calls", "anchors": ["aeromet_py/reports/models/base/group.py: GroupList.__next__", "aeromet_py/reports/models/metar/should_be_cavok.py", "aeromet_py/reports/models/metar/weather_trend.py: Forecast.as_dict", "aeromet_py/reports/models/taf/change_forecast.py: ChangeForecasted.__str__"]}
{"id": "C75", "title": "Ranges of the decoded numbers", "statement": "The numbers of a constructed report lie in fixed ranges, whatever text it was made from: wind directions 0 to 360 degrees, speeds and gusts 0 to 1942 knots, variations 10 to 360 degrees, prevailing visibility 0 to 200017 m and minimum visibility and runway ranges 0 to 10000 m, directions of visibility 45 to 360 degrees, clouds 0 to 30450 m, temperatures of air, dew point, sea and forecast extremes -99 to 99 degrees, pressure 0 to 338605 hPa, waves 0 to 100 m; the same in trends and changes. (Finding: the ranges are those of the patterns and wider than physics; a bare 9999 is read as a pressure of 338604 hPa.)", "quantifier": "for every text on which the constructor succeeds, every station table, clock and arguments", "why_tests_cant": "all texts, all groups of the grammars in all units", "anchors": ["aeromet_py/reports/models/metar/wind.py", "aeromet_py/reports/models/metar/visibility.py", "aeromet_py/reports/models/metar/cloud.py", "aeromet_py/reports/models/metar/temperatures.py", "aeromet_py/reports/models/metar/pressure.py", "aeromet_py/reports/models/metar/sea_state.py", "aeromet_py/reports/models/metar/runway_range.py", "aeromet_py/reports/models/taf/temperature.py"]}
{"id": "C76", "title": "Numbers handed over as text", "statement": "Speeds converted from metres per second, visibilities converted from statute miles, runway ranges converted from feet and wave heights are formatted with f\"{x}\" and parsed again by Speed and Distance. A double that is zero, or at least 0.001 and below 10^16 (which all of these are) arrives unchanged; its text is never the special text 9999 and is never too short for Speed.", "quantifier": "for every non-negative double that is zero or between 0.001 and 10^16", "why_tests_cant": "all doubles of the range, with the shortest decimal representation of each", "anchors": ["aeromet_py/reports/models/base/wind.py: Wind._mps2kt", "aeromet_py/reports/models/base/wind.py: Speed", "aeromet_py/reports/models/base/distance.py: Distance", "aeromet_py/reports/models/metar/visibility.py: _from_sea_miles", "aeromet_py/reports/models/metar/runway_range.py: _set_range", "aeromet_py/reports/models/metar/sea_state.py"]}
{"id": "C77", "title": "Sections are decoded independently", "statement": "Let two texts be constructed at the same moment with the same year and month. If their bodies are the same, every attribute read from the body is the same, whatever the trends, changes and remark are; the trends and changes only add their own part to the text and to the unparsed groups. A METAR trend is determined by its own text and the time of the report, a TAF change by its own text and the valid period of the report, whatever stands around it; only the end of the period of an FM change depends on the next change.", "quantifier": "for every pair of report texts that can be constructed, every trend of one and every trend of the other, every database, clock, year and month", "why_tests_cant": "all pairs of texts that share a section, with any contents of the others", "anchors": ["aeromet_py/reports/metar.py: Metar._parse_body, Metar._parse_weather_trend", "aeromet_py/reports/taf.py: Taf._parse_body, Taf._parse_changes_forecasted", "aeromet_py/reports/models/metar/weather_trend.py: ChangePeriod", "aeromet_py/reports/models/taf/change_forecast.py: ChangeForecasted"]}
{"id": "C78", "title": "The body of a report read alone", "statement": "Constructing a report from the body of another one succeeds whenever the other was constructed (with truncate off, the same year, month and clock): the text is all body, there are no trends or changes, and every attribute read from the body is the one of the whole report. For METAR this is said of any text without '=' and '|' whose body is not empty, for TAF of texts that consist of body words and changes.", "quantifier": "for every report text as described, every database, clock, year and month", "why_tests_cant": "all texts, with any trends, changes and remarks behind the body", "anchors": ["aeromet_py/reports/metar.py: Metar._handle_sections, Metar.__init__", "aeromet_py/reports/taf.py: Taf._handle_sections, Taf.__init__", "aeromet_py/reports/models/base/report.py: Report.__init__"]}
{"id": "C79", "title": "Which words are ambiguous", "statement": "The only words that the patterns of two kinds of METAR groups both accept are: station and modifier (CORR, TEST, FINO, AUTO), station and visibility (M or P, then a digit and SM or KM, or two digits and M or U), station and weather (four-letter weather groups such as TSRA), station and cloud (VVCB), station and recent weather (RE and a two-letter code), visibility and minimum visibility (four digits or ////, with or without a direction), and both of these and pressure (four digits or ////). Every other word can only be read as one kind, wherever it stands. In trends and in changes of a TAF no word is ambiguous. In a TAF body exactly eight pairs of kinds share words, six of them with the visibility, whose pattern asks for the end of the word only after CAVOK.", "quantifier": "for every word without a line break, every pair of kinds, every list of groups", "why_tests_cant": "all words of any length, all 136 pairs of METAR patterns and all pairs of the others", "anchors": ["aeromet_py/utils/metar_regexp.py: MetarRegExp", "aeromet_py/utils/taf_regexp.py: TafRegExp", "aeromet_py/reports/metar.py: Metar._parse_body", "aeromet_py/reports/taf.py: Taf._parse_body", "aeromet_py/reports/models/metar/weather_trend.py: ChangePeriod._parse", "aeromet_py/reports/models/taf/change_forecast.py: ChangeForecasted._parse"]}
{"id": "C80", "title": "Temperatures converted back", "statement": "kelvin_to_celsius, fahrenheit_to_celsius and rankine_to_celsius compute t - 273.15, 5/9 (t - 32) and 5/9 (t - 491.67) up to the fraction 1e-15 of the magnitudes involved, and are monotone. A temperature of a report converted to kelvin, Fahrenheit or Rankine and back is the same temperature up to the fraction 4e-15 of its magnitude plus that of the shift.", "quantifier": "for every double", "why_tests_cant": "all doubles; the error of three roundings in a row", "anchors": ["aeromet_py/utils/conversions.py: Conversions.kelvin_to_celsius, fahrenheit_to_celsius, rankine_to_celsius"]}
{"id": "C81", "title": "Lists of groups: access and text", "statement": "list[i] of a list of groups that respects its capacity is the group at that index, counted from the front or, negative, from the back; it raises RangeError exactly for indices from the capacity on and IndexError exactly for the other indices without a group. str of the runway ranges, weathers and clouds of a METAR, trend, TAF or change is what each of its groups states, in the order of the text, with ' | ' between neighbours; str of the wind shears is 'all runways' exactly when the single group says ALL, else the same form; str of the trends of a METAR record has one trend after the other on separate lines; str of the changes of a TAF record has for each change its meaning and the period it has in the end (of an FM change the one that later changes leave it), each followed by a line break and with another one between neighbours.", "quantifier": "for every list, every integer index, every constructed report (trends and changes: every well-formed record in every layout)", "why_tests_cant": "all lists and indices, all reports", "anchors": ["aeromet_py/reports/models/base/group.py: GroupList.__getitem__, GroupList.__str__", "aeromet_py/reports/models/metar/windshear.py: MetarWindshearList.__str__", "aeromet_py/reports/models/metar/weather_trend.py: MetarWeatherTrends.__str__", "aeromet_py/reports/models/taf/change_forecast.py: TafChangesForecasted.__str__"]}
{"id": "C82", "title": "Dictionaries of change indicators", "statement": "as_dict of the indicator of a METAR trend holds the forecast window (init and end), the beginning and end of the period, the instant of the change (None exactly when there is none), the meaning and the code, each under its name, and nothing else; as_dict of the indicator of a TAF change holds its valid period, the meaning and the code.", "quantifier": "for every trend of every constructed METAR, every indicator of a TAF change", "why_tests_cant": "all trends with any period groups", "anchors": ["aeromet_py/reports/models/metar/trend_indicator.py: MetarTrendIndicator.as_dict", "aeromet_py/reports/models/taf/change_indicator.py: TafChangeIndicator.as_dict"]}
{"id": "C83", "title": "Duration of a valid period", "statement": "The duration of the validity of a TAF and of its changes is the number of minutes from its beginning to its end. With a valid group (of a change: unless it is an FM change) it is the difference of the two stated hours, where a day other than the day of issue (for a change: other than the first day of the validity of the report) counts as the next one; it is a whole number of hours between -47 and 48, and 24 hours without a valid group. (Finding: a validity stated backwards has a negative duration and is not refused.)", "quantifier": "for every constructed TAF, every clock, every valid group", "why_tests_cant": "all texts, all days and hours, ends of months and years", "anchors": ["aeromet_py/reports/models/taf/valid.py: Valid.duration", "aeromet_py/reports/models/taf/valid.py: Valid.from_taf"]}
{"id": "C84", "title": "Every quantity in every unit, from the text", "statement": "Whatever unit a quantity can be asked for in, the number given is the quantity that its group states: wind and gust speeds (from KT or MPS) in knots, m/s, km/h and mi/h to eight digits (mi/h: six); wind, variation and visibility directions in degrees, radians and gradians, and as the compass point in whose sector they lie (of a visibility, the point written); a wind is variable exactly when VRB is written; visibilities, runway visual ranges (from metres or feet) and cloud heights in metres, kilometres, sea miles and feet; temperatures and dew points in Celsius, kelvin, Fahrenheit and Rankine within 1e-12; pressures (from hPa or hundredths of inches) in hPa, inHg, mbar, bar and atm to six digits; sea temperature and wave heights. Asked for in the unit of the group the stated number itself comes out (MPS to 13 digits, inches to 7). Missing parts are None in every unit. A bare pressure above 2500 is excepted. A factor of zero in `converted` counts as no factor, which happens for none of the constants.", "quantifier": "for every group of each kind, every constructed METAR, trend, TAF and TAF change", "why_tests_cant": "all digits, units and signs of every group, all reports", "anchors": ["aeromet_py/reports/models/base/numeric.py: Numeric.converted", "aeromet_py/reports/models/base/wind.py: Direction, Speed, Wind properties", "aeromet_py/reports/models/base/distance.py: Distance properties", "aeromet_py/reports/models/base/temperature.py: Temperature properties", "aeromet_py/reports/models/base/pressure.py: Pressure properties", "aeromet_py/reports/models/metar/wind.py: gust_in_*", "aeromet_py/reports/models/metar/wind_variation.py", "aeromet_py/reports/models/metar/visibility.py", "aeromet_py/reports/models/metar/runway_range.py", "aeromet_py/reports/models/metar/temperatures.py", "aeromet_py/reports/models/metar/sea_state.py", "aeromet_py/reports/models/base/cloud.py: height_in_*"]}
{"id": "C85", "title": "split_sentence for any text, keywords and limit", "statement": "Whatever text without a bar, keywords of capitals and digits, limit and side of the blank: when the blank before the keyword is looked for (left, both) the parts joined by blanks are the text, and every part but the first begins with a keyword; otherwise the parts put together are the text. With a limit n there are at most n parts per keyword besides the first. With left and no limit the parts are the only ones that spell the text, begin with keywords and cannot be cut further. (Findings: with both, a keyword that follows itself directly is overlooked; without blanks a part need not begin with a keyword.)", "quantifier": "for every text, list of keywords, limit and value of space", "why_tests_cant": "all texts and keywords of any length", "anchors": ["aeromet_py/utils/split.py: split_sentence", "aeromet_py/utils/split.py: _add_space_left, _add_space_right, _add_space_both"]}
{"id": "C86", "title": "JSON text of the parts of a report", "statement": "The JSON text of every group, list of groups and quantity of a report made from Unicode text, asked for alone, is read back by an independent reader as the dictionary of that part; the JSON text of the report holds it, character for character, the groups and lists directly behind their keys. In general the text of whatever lies inside a value is part of the text of the value.", "quantifier": "for every constructed METAR and TAF, every group, list and number with to_json; for every value", "why_tests_cant": "all reports, all values", "anchors": ["aeromet_py/reports/models/base/group.py: Group.to_json, GroupList.to_json", "aeromet_py/reports/models/base/numeric.py: Numeric.to_json", "aeromet_py/reports/models/base/wind.py: Wind.to_json", "aeromet_py/reports/models/base/report.py: Report.to_json"]}
{"id": "C87", "title": "A section is read completely whenever that is possible", "statement": "A report has an empty unparsed_groups exactly when the groups of its body, and those of each of its trends or changes, fit the order of the groups: some of the patterns of the table, taken in order, match the groups one by one. So choosing the first applicable handler at every group misses no complete reading, and with truncate=True ParserError is raised exactly for the readable reports that do not fit. (The stronger claim that as few groups as possible are left over is false: in 'METAR COR SKBO 151200Z' station and time are left over, though all groups but COR fit.)", "quantifier": "for every handler table and section text; for every METAR and TAF text, year, month and clock that gives a report", "why_tests_cant": "An example shows one report that is read completely; that no report with a complete reading is missed is a statement about all assignments of groups to handlers.", "anchors": ["aeromet_py/reports/metar.py: Metar._parse_body", "aeromet_py/reports/taf.py: Taf._parse_body", "aeromet_py/reports/models/base/__init__.py: parse_section"]}
{"id": "C88", "title": "A report cut short", "statement": "What is decoded and left over of a front part of the groups of a section begins what is decoded and left over of the whole section. So when the body of one report is a front part of the body of another (as after a broken transmission), the two agree in every attribute up to the last group decoded, also in those that are missing, and the lists of the first begin the lists of the second.", "quantifier": "for every handler table and lists of groups; for every pair of METAR or TAF texts the groups of whose bodies are a front part of each other, read with the same arguments and clock", "why_tests_cant": "A test compares one report with one shortened version; the claim compares every report with every report it begins.", "anchors": ["aeromet_py/reports/models/base/__init__.py: parse_section", "aeromet_py/reports/metar.py: Metar._parse_body", "aeromet_py/reports/taf.py: Taf._parse_body"]}
{"id": "C89", "title": "The arithmetic of reports is IEEE 754 and never near its limits", "statement": "Rounding a number of the normal range of binary64 gives the nearest number of the format, ties to even, and nothing else. The product, quotient, sum and difference of two doubles of a magnitude from 1e-100 to 1e100 are those of IEEE 754, with the right sign of zero. Every number a METAR, a TAF, a trend or a change can show, in each of its units, is a number of the format that is zero or of a magnitude from 0.00001 to 100 million: no conversion overflows, underflows or gives infinity.", "quantifier": "for all rational numbers in the normal range; for all pairs of doubles of moderate size; for every METAR and TAF text, station table, clock and arguments that give a report, and every number of it in every unit", "why_tests_cant": "There are 2^128 pairs of doubles and unboundedly many reports; a test sees a few quotients, not that no text leads to an overflow.", "anchors": ["aeromet_py/utils/conversions.py: all constants and functions", "aeromet_py/reports/models/base/numeric.py: Numeric.converted", "aeromet_py/reports/models/base/distance.py", "aeromet_py/reports/models/base/pressure.py", "aeromet_py/reports/models/base/temperature.py"]}
{"id": "C90", "title": "Decimal texts of numbers", "statement": "A number shown with N decimals has exactly N of them, no needless zero in front, a minus sign exactly when its sign bit is set, and is the nearest such decimal, ties to even. A number written by repr, str or json.dumps is the decimal of fewest digits that is read back as the same double, the closest of those, at most 17 digits, with an exponent exactly when it is at least 10^16 or below 1/10000. All numbers of a METAR or TAF that are not zero are written that way.", "quantifier": "for all doubles and all numbers of decimals at least one; for all doubles of magnitude from 1e-100 to 1e100; for every number in every unit of every METAR and TAF that can be constructed", "why_tests_cant": "Minimality speaks about all decimals that read as the number; a test compares a few texts.", "anchors": ["aeromet_py/reports/models/base/numeric.py: Numeric.__str__", "aeromet_py/reports/models/metar/visibility.py: __str__", "aeromet_py/reports/models/base/cloud.py: __str__, from_metar heights", "aeromet_py/reports/models/metar/pressure.py: MetarPressure.__init__", "aeromet_py/reports/models/base/report.py: to_json", "aeromet_py/reports/models/base/numeric.py: to_json"]}
{"id": "C91", "title": "Matching a pattern", "statement": "A pattern fits a text in certain ways: which alternative, whether an optional part is used, how many characters a repetition takes. re.match gives the way that makes the preferred choice (left alternative, part used, more characters) at the first place where ways differ, and None exactly when there is none; a named group is the text of its latest capture. re.search gives that way at the leftmost position of the text that has one, and re.sub replaces the successive leftmost ones, up to the limit, and nothing else.", "quantifier": "for all patterns of the syntax used by the library and all texts; search and sub for all patterns without ^ that never match the empty text, which holds of all patterns the library passes to them", "why_tests_cant": "Which of several ways an engine takes shows only on texts with more than one, and the claim ranges over all patterns.", "anchors": ["aeromet_py/utils/metar_regexp.py", "aeromet_py/utils/taf_regexp.py", "aeromet_py/utils/parser.py: re.search, re.sub", "aeromet_py/utils/split.py: split_sentence", "aeromet_py/reports/models/base/__init__.py: re.match"]}
{"id": "C92", "title": "Meaning of the pattern texts", "statement": "Under the grammar of Python's re (characters, escapes, brackets, ^ and $, plain and named groups, ?, +, {m}, {m,}, {m,n}, sequence before |) a pattern text has one reading at most, and every pattern used in the other theorems is the reading of its text in the source.", "quantifier": "for all texts of the grammar; for every pattern of metar_regexp.py, taf_regexp.py, parser.py, report.py, wind.py and strptime, and for every keyword without special characters", "why_tests_cant": "An ambiguity of the grammar or a wrong reading shows only on the texts concerned.", "anchors": ["aeromet_py/utils/metar_regexp.py", "aeromet_py/utils/taf_regexp.py", "aeromet_py/utils/parser.py", "aeromet_py/utils/split.py", "aeromet_py/reports/models/base/report.py: _raw_code", "aeromet_py/reports/models/base/wind.py: Wind.__str__"]}
{"id": "C93", "title": "Reading numbers from text", "statement": "On every text that the library passes to float or int, the number read is the one Python's documentation gives (white space, sign, digits of any script, underscores, point, exponent, inf and nan taken into account), and a text is refused exactly if it has no reading. The texts are: captured groups, as they are or with zeros or a minus sign added, the two parts of a fraction, and numbers the library has written itself, none of which needs an exponent.", "quantifier": "for all texts of digits and the characters -/VRBXM, and all decimals with digits on both sides of the point; for every match of the patterns with any text; for all doubles written with decimals, and all speeds, ranges, wave heights and visibilities that groups can state", "why_tests_cant": "The set of texts that patterns let through is large (all scripts of digits), and that no exponent, underscore or inf reaches float is a claim about all of them.", "anchors": ["aeromet_py/reports/models/base/wind.py: Direction.__init__, Speed.__init__, Wind._mps2kt", "aeromet_py/reports/models/base/distance.py", "aeromet_py/reports/models/base/pressure.py", "aeromet_py/reports/models/base/temperature.py", "aeromet_py/reports/models/base/cloud.py: from_metar heights", "aeromet_py/reports/models/metar/visibility.py: _from_sea_miles", "aeromet_py/reports/models/metar/runway_range.py: _set_range", "aeromet_py/reports/models/metar/runway_state.py", "aeromet_py/reports/models/metar/sea_state.py", "aeromet_py/reports/models/metar/trend_indicator.py", "aeromet_py/reports/models/taf/valid.py", "aeromet_py/reports/models/taf/temperature.py", "aeromet_py/reports/models/taf/change_indicator.py"]}
{"id": "C94", "title": "Methods of strings and dictionaries", "statement": "replace puts the new text in place of all occurrences of the old one, taken from the left and not overlapping, and changes nothing else. strip removes the white space at both ends and only that. split gives the only list of texts without the separator that, joined by it, is the text; join puts the separator between neighbours. Numbers are written with the fewest digits, and padded with zeros up to the width, the sign included. No dictionary literal has a key twice, so get finds the one entry of a key or None. Assigning to a key and update change an entry in its place or add it last, and leave the others.", "quantifier": "for all texts, separators, lists of texts, integers and widths; for all dictionaries with distinct keys; for the 18 tables of texts and the table of directions of the source", "why_tests_cant": "Overlapping occurrences, white space of other scripts, empty words and numbers wider than the width are cases a test has to think of; the statements range over all texts.", "anchors": ["aeromet_py/reports/models/base/group.py: Group.__init__, GroupList.__str__", "aeromet_py/reports/models/base/report.py: Report.__init__, as_dict", "aeromet_py/reports/models/base/__init__.py: parse_section", "aeromet_py/utils/split.py: split_sentence", "aeromet_py/reports/taf.py: _handle_sections", "aeromet_py/reports/models/metar/visibility.py: MetarPrevailingVisibility.__init__", "aeromet_py/reports/models/base/time.py: Time.from_metar", "aeromet_py/reports/models/metar/weather.py", "aeromet_py/reports/models/base/cloud.py: SKY_COVER, CLOUD_TYPE", "aeromet_py/reports/models/metar/runway_state.py: tables"]}
{"id": "C95", "title": "Any year and month given to a report", "statement": "Whatever integers are given as year and month, a METAR that is made has its time in exactly that month, or the year given was from 0 to 999 and the time is in another year, at least ten times as late (shown for November 999, read in 9991). Negative years, years after 9999, negative months, and months other than 1 to 12 of a four digit year raise ValueError whatever the text (the empty one apart, C04). For a TAF the same holds if the body has a time group; without one the year and month given are not used at all.", "quantifier": "for all pairs of integers as year and month, all texts, all clocks that show an existing month of a four digit year", "why_tests_cant": "The two integers are printed, joined with the digits of the group and read back with strptime, whose pattern has optional second digits. Tests use sensible years, so the years that are misread without an error go unnoticed.", "anchors": ["aeromet_py/reports/models/base/time.py: Time.__init__", "aeromet_py/reports/models/base/time.py: Time.from_metar", "aeromet_py/reports/metar.py: _handle_time, __init__", "aeromet_py/reports/taf.py: _handle_time"]}
{"id": "C96", "title": "The unparsed groups can be struck out of a report", "statement": "The decoded groups of a section, taken alone and in their order, are decoded by the same handlers to the same values, and nothing is left unparsed. So if the words of the body of a METAR or TAF that were reported as unparsed are struck out of the text, the new text gives a report equal to the first in every decoded value, trend and change, with the texts and the list of unparsed groups as the only differences; that list is then the one of the trends or changes. If the first text raises an exception the shorter text raises the same. The same holds of a trend of a METAR and of a change of a TAF, where the list becomes empty.", "quantifier": "For every list of handlers, every section, every start state, all words (those that the preprocessing does not join with a neighbour), every number of unparsed words at any places, every set of trends, remark and changes, every database, clock and call option, and also for any two texts whose bodies have the said groups.", "why_tests_cant": "Any number of words may be struck out at any places, and the handlers are scanned with a cursor that each decoded group moves; tests can only remove words from a few chosen reports.", "anchors": ["aeromet_py/reports/models/base/__init__.py: parse_section", "aeromet_py/reports/metar.py: _parse_body", "aeromet_py/reports/taf.py: _parse_body", "aeromet_py/reports/models/metar/weather_trend.py: _parse", "aeromet_py/reports/models/taf/change_forecast.py: _parse"]}
{"id": "C97", "title": "Every group of a report is accounted for", "statement": "Every group of a section is either decoded or left unparsed, never both, and no two by the same handler. The codes of the attributes of a METAR, read in the order type, station, time, modifier, wind, wind variation, visibility, minimum visibility, runway ranges, weather, clouds, temperatures, pressure, recent weather, wind shears, sea state, runway state, are exactly the decoded groups in the order of the text (joined words shown with blanks): no decoded group is missing, repeated or moved. The two exceptions are the type, which has a code also when the text has none, and a second pressure group, which replaces the first. So if all the words of a body are decoded and there is one pressure at most, the text of the body is the codes set side by side. The same holds of a TAF, where the temperature groups are distributed over two lists which keep their order, of the trends and of the changes, whose indicator has the words of the period in its code (an FM indicator has not).", "quantifier": "for every text, database, clock and call option for which a report is made, every trend and change of it; for any table of handlers", "why_tests_cant": "Each of the up to 27 groups may be there or not, and the lists have several entries, so the combinations are beyond testing; a handler that stored a group in a wrong list or dropped one would only be seen by a test with that combination.", "anchors": ["aeromet_py/reports/models/base/__init__.py: parse_section", "aeromet_py/reports/metar.py: handlers", "aeromet_py/reports/taf.py: handlers", "aeromet_py/reports/models/base/group.py: GroupList.codes, Group.code"]}
{"id": "C98", "title": "Characters that no group has, and text behind a group", "statement": "A word with a character other than a capital letter, a digit, +, -, / or _, a line feed (which no word of a report has) apart (a comma, a full stop, a small letter, a bracket) is matched by none of the patterns that are closed by $, so in a METAR body every such group is listed as unparsed. Four patterns have alternatives without $: the visibility and temperature of a TAF and both change indicators. These accept the word exactly when they accept the part before the character without needing the end of the text; the captured groups, and so visibility and temperature, are those of that part, while a change indicator then has no translation. In a TAF body such a group is unparsed unless it is taken as visibility or temperature in this way; in a trend or change unless it is the indicator. More generally every text may follow such a part, and every word that begins with four digits fits the visibility of a TAF: a misspelt wind group 09012KTS is read as a visibility of 901 m, and the visibility group after it is left unparsed.", "quantifier": "for every text before and after the character, every foreign character, all 27 patterns of the handlers; for every report, trend and change that is made from any text; for all four digits and every continuation", "why_tests_cant": "The text around the character is unbounded and there are over a million characters; that a search of a pattern cannot succeed is a statement on all its ways.", "anchors": ["aeromet_py/utils/metar_regexp.py", "aeromet_py/utils/taf_regexp.py", "aeromet_py/reports/taf.py: handlers", "aeromet_py/reports/metar.py: handlers"]}
{"id": "C99", "title": "Every attribute depends on its own groups only", "statement": "Take any two METARs, made from any two texts, with different station tables, clocks, years, months and truncate options. If the groups decoded at the place of an attribute are the same in both, the attribute is the same: wind, wind variation, visibilities, runway ranges, weather, clouds, temperatures, pressure, recent weather, wind shears, sea state, runway state, type and modifier depend on nothing else in the text or the surroundings. The station needs the same tables besides, the time the same clock, year and month. Flight rules are the same when visibility and clouds are, should_be_cavok when the weather is so too. The same holds of TAFs (the temperatures need the time of the report, the valid period time and clock), of trends (whose indicator needs the time of the report) and of changes (whose indicator needs the valid period of the report; only the end of an FM period depends on the next change).", "quantifier": "for all pairs of texts, databases, clocks and options for which reports are made, and all pairs of their trends and changes", "why_tests_cant": "It is a statement on all pairs of reports: a leak from one group into the attribute of another shows only for particular combinations of groups, and tests look at one report at a time.", "anchors": ["aeromet_py/reports/metar.py: Metar, handlers", "aeromet_py/reports/taf.py: Taf, handlers", "aeromet_py/reports/models/metar/weather_trend.py: ChangePeriod", "aeromet_py/reports/models/taf/change_forecast.py: ChangeForecasted"]}
{"id": "C100", "title": "Reports with the same groups in another order", "statement": "Take two METARs, with the same station tables, clock and options, whose bodies consist of the same groups in any two orders, and suppose both are decoded without a group left over and no word is read as one kind of group here and another there (a word that only one pattern accepts never is). Then type, station, time, modifier, wind, wind variation, both visibilities, temperatures, recent weather, sea state, runway state and, if only one is given, pressure are the same, and runway ranges, weather, clouds and wind shears are the same up to their order. Moreover the kinds of the groups come in the same order in both: to exchange groups of different kinds always leaves a group over. The same is true of TAFs, and of trends and changes without the condition on the words, since none has two readings there; the times of two such trends also agree, if the reports are of the same time and the trend does not have two periods of one kind (`FM`, `TL`, `AT`). It is not true of the flight rules: they follow the first broken layer as it is written, not the lowest one.", "quantifier": "for all pairs of texts, all databases, clocks and options for which reports are made, and all pairs of their trends and changes", "why_tests_cant": "All orders of all lists of groups are covered; a test checks a few orders of one report.", "anchors": ["aeromet_py/reports/metar.py: Metar, handlers", "aeromet_py/reports/taf.py: Taf, handlers", "aeromet_py/reports/models/metar/weather_trend.py: ChangePeriod", "aeromet_py/reports/models/taf/change_forecast.py: ChangeForecasted", "aeromet_py/reports/models/base/flight_rules.py: FlightRulesMixin.flight_rules"]}
{"id": "C101", "title": "Lengths of groups and the work of matching", "statement": "For each of the 23 patterns that end with $ in all their alternatives, the lengths of the words they accept are exactly those of a table (station 4, time 7, wind 7 to 15, runway range 6 to 19, pressure 4, 5, 7, 8 or 10, and so on); the other four (TAF visibility and temperature, the change indicators) accept words of a least length (1, 10, 5, 5) and of every greater length. Hence a word of more than 19 characters in the body of a METAR is always reported as unparsed, and one of more than 15 characters is decoded in a TAF as visibility or temperature only, in trends and changes as the indicator only. Matching never takes long: whatever the word and however long, an exhaustive search of any of the patterns has at most 4320 ways and 12961 tests, so no text leads to catastrophic backtracking.", "quantifier": "for all patterns used by the parsers, all words of all lengths, and all reports, trends and changes", "why_tests_cant": "The claim is about words of every length; and absence of bad backtracking cannot be shown by trying words.", "anchors": ["aeromet_py/utils/metar_regexp.py", "aeromet_py/utils/taf_regexp.py", "aeromet_py/reports/metar.py: Metar, handlers", "aeromet_py/reports/taf.py: Taf, handlers"]}
{"id": "C102", "title": "The time line of a TAF", "statement": "Every change of a TAF starts on the day its validity starts, or later. An FM change that is followed by an FM or BECMG change (PROB and TEMPO changes may be between them) ends exactly one hour before that change starts; so it ends before it starts exactly if the other starts less than an hour later. If every change is of the kind its text begins with (a misspelt PROB20 is of none) and the FM and BECMG changes are written in the order of their starts, then at no instant two FM changes are in force, and within the hour before every FM or BECMG change no FM change is. Without that order two can be in force together; and that a change starts before the report ends is false: FM091500 in a report for the 10th and 11th starts in the next month.", "quantifier": "for all texts, databases, clocks and options for which a TAF is made, all pairs of its changes and all instants", "why_tests_cant": "It is about all pairs of changes at all instants, for every combination of kinds of changes; tests compare the times of single changes.", "anchors": ["aeromet_py/reports/models/taf/change_forecast.py: TafChangesForecasted.add", "aeromet_py/reports/models/taf/change_indicator.py: TafChangeIndicator", "aeromet_py/reports/taf.py: Taf._parse_changes_forecasted"]}
{"id": "C103", "title": "Comparing reports by any unit", "statement": "If of two groups of one kind one states less than the other, then the decoded objects compare in the same way in every unit they offer, strictly, whatever units the groups are written in: wind speeds and gusts (KT and MPS), visibilities (metres, kilometres, miles with fractions), heights of clouds, ends of runway visual ranges (metres and feet), temperatures and dew points, temperatures of a TAF, temperature and waves of the sea, and pressures that differ by a tenth of a hectopascal at least. In particular neither the constants of the library nor rounding ever make two different statements equal or exchange them. For two METARs this is said of their attributes. For closer pressures in different units it is false: 29.53 inches are more than 1000 hPa, but decoded as the same.", "quantifier": "for all pairs of groups of each kind, all units, and all pairs of METARs, databases, clocks and options", "why_tests_cant": "All pairs of groups in all pairs of units are far too many to try, and rounding and approximate constants could exchange any of them.", "anchors": ["aeromet_py/utils/conversions.py", "aeromet_py/reports/models/base/numeric.py: Numeric.converted", "aeromet_py/reports/models/base/distance.py: Distance", "aeromet_py/reports/models/base/wind.py: Speed", "aeromet_py/reports/models/base/temperature.py: Temperature", "aeromet_py/reports/models/base/pressure.py: Pressure", "aeromet_py/reports/metar.py: Metar, handlers"]}
{"id": "C104", "title": "Flight rules and CAVOK from the numbers written", "statement": "The rounding of the conversions never carries a visibility over one of the bounds 800, 1600, 5000, 8000, 10000 and 20000 metres: the decoded number is below a bound exactly when the number written in the report, with miles of 1852 m and fractions taken exactly, is below it. So flight_rules of a METAR, a trend, a TAF and a TAF change is the category of two numbers of the text, the hundreds of feet of the first BKN, OVC or VV group (bounds 2, 5, 10, 30) and the metres stated by the visibility group; and should_be_cavok is true exactly when no weather group is decoded, there are layers, all harmless, those that cover most of the sky have a height, and 10000 metres or more are written. With statute miles of 1609 m both claims are false: 3SM is MVFR although it is below 5000 m, and with 6SM, which is below 10000 m, should_be_cavok is true.", "quantifier": "for all visibility groups, all bounds, all METARs, trends, TAFs and TAF changes, all databases, clocks and options", "why_tests_cant": "Near every bound there are fractions of miles whose product is rounded; a test of some of them says nothing about the others, and the conditions interact with all lists of layers and weather.", "anchors": ["aeromet_py/reports/models/base/flight_rules.py: FlightRulesMixin", "aeromet_py/reports/models/metar/should_be_cavok.py: ShouldBeCavokMixin", "aeromet_py/reports/models/metar/visibility.py", "aeromet_py/reports/models/base/cloud.py"]}
{"id": "C105", "title": "One text read in different months", "statement": "The year and the month only move a report. If one text is read as a METAR with any two years, months, clocks and station tables and both readings succeed, the times of the reports have the same day, hour and minute; type, modifier, wind, visibility, runway ranges, weather, clouds, temperatures, pressure, recent weather, windshear, sea and runway state, the groups left unparsed and the forecasts of the trends are equal; and all times of the trends, over the ends of days, months and years, lie equally many minutes from the time of the report. For a TAF the same holds for the stated valid period and the times of the temperatures; without a valid group the validity begins at the same day and hour and has the same length. The changes have the same texts and forecasts; if the validities begin at the same day and time, the periods stated by valid groups lie equally far from that beginning, and so does the beginning of an FM change whose day is left in both months. This last condition is needed: FM010600 after a validity from the 30th begins one day later in June, two days later in May.", "quantifier": "for all texts, all pairs of databases, sane clocks, years 1000-9999 and months 1-12, all trends, temperatures and changes", "why_tests_cant": "A test reads a text with one month, or two; the claim compares every text under every pair of months, with months of different lengths and ends of years among them.", "anchors": ["aeromet_py/reports/metar.py: Metar", "aeromet_py/reports/models/metar/trend_indicator.py", "aeromet_py/reports/models/base/time.py", "aeromet_py/reports/taf.py: Taf", "aeromet_py/reports/models/taf/valid.py", "aeromet_py/reports/models/taf/temperature.py", "aeromet_py/reports/models/taf/change_indicator.py"]}
{"id": "C106", "title": "A report can be made again from its JSON text", "statement": "The JSON text of a METAR keeps what the report was made from. Read as JSON, it has the code of the report under \"code\" and a text beginning YYYY-MM- under \"time\", \"datetime\"; giving that code, that year and that month to the constructor, under any clock, makes the very same report again, whatever year, month, clock and truncation it was first made with. The same holds for a TAF that has a time group and a valid group. So two reports with one JSON text are equal in every attribute, also in those the text does not show. It is needed that the code is settled (not empty, trimmed, no run of blanks): an end-of-message sign between two blanks leaves two blanks, and the code read again is another one. A TAF without a valid group is not kept: its default period follows the clock, its JSON text names only the month of its time.", "quantifier": "for all databases, texts and station tables of Unicode scalar values, sane clocks, years 1000-9999 and months 1-12, and all clocks of the later reading", "why_tests_cant": "A test makes some reports again from stored texts; the claim is that no report is made again differently, in any later month, and that the JSON text determines every attribute.", "anchors": ["aeromet_py/reports/metar.py: Metar", "aeromet_py/reports/taf.py: Taf", "aeromet_py/reports/models/base/report.py", "aeromet_py/reports/models/base/time.py"]}
{"id": "C107", "title": "A group means the same in every part of a report", "statement": "Wind, visibility, weather and clouds are decoded alike in a METAR, in the trends of a METAR, in a TAF and in the changes of a TAF, although four classes and two sets of patterns are at work: if two such parts, of any two reports with any clocks and station tables, have the same groups decoded as wind, their winds are equal, and likewise their visibilities, lists of weather and lists of clouds; with equal groups for visibility and clouds they have the same flight rules, and with equal weather groups the same answer to should_be_cavok. Type, station, modifier and time of a METAR and a TAF agree in the same way. What differs is which groups are taken: TAF and change take as wind exactly the wind groups of a METAR that have no solidus; the body of a TAF takes every visibility group of a METAR except those beginning with four solidi, a change takes those too, and the body of a TAF takes groups like 3000X that a change leaves.", "quantifier": "for all pairs of METARs, trends, TAFs and changes of reports with any texts, databases, clocks and options; for all groups", "why_tests_cant": "Tests decode a group in the part they are about; the claim compares two decoders, with different patterns, on every group both of them take.", "anchors": ["aeromet_py/reports/metar.py: Metar", "aeromet_py/reports/models/metar/weather_trend.py: ChangePeriod", "aeromet_py/reports/taf.py: Taf", "aeromet_py/reports/models/taf/change_forecast.py: ChangeForecasted", "aeromet_py/utils/metar_regexp.py", "aeromet_py/utils/taf_regexp.py"]}
{"id": "C108", "title": "METAR and TAF are told apart by their groups", "statement": "The constructors do not check which kind of report a text is, but the groups do: a group that only a TAF has (valid period, CNL, TX or TN temperature) is never decoded in the body or a trend of a METAR and is listed among its unparsed groups; a group that only a METAR has (variation of the wind, runway visual range, wind shear, state of sea or runway, pressure with a letter, temperatures not beginning with M) is never decoded in the body or a change of a TAF and is listed. So a strict METAR has no group of the first sort and a strict TAF none of the second. When one text without trends, changes and remarks is read strictly by both constructors and has a station and a visibility, both reports say the same: type if written, station, code of the time, wind, visibility, weather, clouds and flight rules are equal, the times too when the same year and month are in use, NIL is the modifier of the one and the missing group of the other, and no other attribute of either is set. Without station or visibility this is false: in COR TSRA the second word is weather of a METAR and the station of a TAF.", "quantifier": "for all texts, databases, clocks and options; for all groups; for all lists of words", "why_tests_cant": "Tests give METARs to Metar and TAFs to Taf; the claim is about every text that both accept, and about every group of the one kind wherever it is put in the other.", "anchors": ["aeromet_py/reports/metar.py: Metar._parse_body", "aeromet_py/reports/taf.py: Taf._parse_body", "aeromet_py/reports/models/metar/weather_trend.py: ChangePeriod", "aeromet_py/reports/models/taf/change_forecast.py: ChangeForecasted", "aeromet_py/utils/metar_regexp.py", "aeromet_py/utils/taf_regexp.py"]}
{"id": "C109", "title": "A group replaced by another of its kind changes its own attribute only", "statement": "In any section, let one group be replaced by another that the same patterns accept. Then either both are decoded, at the same place, and the groups that are not decoded are the same, or neither is, and the decoded groups are the same. So two METARs (or TAFs) that differ in one such group of the body agree on every attribute but that of the kind of the group; where this attribute is a list, one member of it is changed and the others stay where they are. Exceptions are only those of derivation: the valid period and the temperatures of a TAF are computed from its time, the trends of a METAR from its time, the changes of a TAF from its valid period; with the same text they are the same otherwise, and so is the list of unparsed groups. Any two words of the kinds type, time, wind, variation, range, temperatures, wind shear, sea and runway of a METAR are accepted by the same patterns, and any two of the kinds amendment, time, NIL, valid, CNL and temperature of a TAF; words of other kinds are if they are not shared with another kind. Of visibilities this is false: after 3000, 9999 is read as the minimum visibility and CAVOK is not read.", "quantifier": "for all lists of groups and all pairs of words; for all reports that are read, with any database, clock and options", "why_tests_cant": "Tests compare a report with expected values; that nothing else moves when one group is exchanged is a statement about pairs of reports, for every group in every place.", "anchors": ["aeromet_py/reports/models/base/__init__.py: parse_section", "aeromet_py/reports/metar.py: Metar._parse_body", "aeromet_py/reports/taf.py: Taf._parse_body", "aeromet_py/utils/metar_regexp.py", "aeromet_py/utils/taf_regexp.py"]}
{"id": "C110", "title": "Groups can be left out of a report", "statement": "In any section, let the groups behind the first ones all be decoded, each as the first kind, of those behind the kinds of the first groups, that accepts it. Then any of them can be left out: the others are decoded as the same kinds in the same order, and the groups that are not decoded are the same. So a METAR (or TAF) from whose body such groups are left out has each attribute that is read from one group as it was, or the attribute has its default value and its group was decoded before and is not any more; each list of ranges, weathers, clouds, wind shears or temperatures is a sublist of the former; the pressure is the same if the last pressure group is. The time is the same or its group is left out; the valid period and the temperatures of a TAF are compared for the same time. Trends, changes and the list of unparsed groups are the same if the text of the trends (changes) is, and the time (valid period). The condition holds in a METAR, behind the station, if no group was read as the minimum visibility and no pressure is four digits or solidi only, and in a TAF, behind the station, if no time, valid period or wind was read as visibility and the pattern of the visibility accepts none of the groups read as weather. So a METAR read completely that meets this, written again without some groups behind its time, is read completely again, with the same time and trends. From a trend of a METAR or a change of a TAF that is read completely any groups can be left out, without condition: it is read completely again, and its conditions are the same or gone in the same way. In the body the condition is needed: in 3000 1500NE the second is not the prevailing visibility, but it is when 3000 is left out.", "quantifier": "for all lists of groups and all sublists of them; for all reports that are read, with any database, clock and options", "why_tests_cant": "Tests read given reports; there are exponentially many ways to leave groups out of one report, and the statement compares each with the whole report.", "anchors": ["aeromet_py/reports/models/base/__init__.py: parse_section", "aeromet_py/reports/metar.py: Metar._parse_body", "aeromet_py/reports/taf.py: Taf._parse_body", "aeromet_py/reports/models/metar/weather_trend.py: ChangePeriod", "aeromet_py/reports/models/taf/change_forecast.py: ChangeForecasted", "aeromet_py/utils/metar_regexp.py", "aeromet_py/utils/taf_regexp.py"]}
{"id": "C111", "title": "CAVOK set by hand", "statement": "Let any objects be assigned to prevailing_visibility.cavok of a METAR or TAF. An assignment raises TypeError exactly when the object is not a bool, and then changes nothing. After all of them the value is the last bool assigned, and the report is the former one if there was none. In the dictionary just the entry cavok of prevailing_visibility, which is there, is another, with the order of the entries the same. The text of the report, the flight rules and the answer of should_be_cavok do not notice the assignments, so that the text of a report keeps its former line about the visibility; assigning the former value restores the report. When CAVOK is taken back by hand where it was reported (METAR, trend, TAF or change), the visibility is 10.0 km in words; when it is given by hand, the words are those of CAVOK whatever the visibility.", "quantifier": "for all sequences of assignments; for all reports that are read, with any database, clock and options", "why_tests_cant": "A test assigns some values to some object; the statement is about every sequence of assignments and about all other observations of every report.", "anchors": ["aeromet_py/reports/models/metar/visibility.py: MetarPrevailingVisibility.cavok", "aeromet_py/reports/models/metar/visibility.py: MetarPrevailingVisibility.__str__", "aeromet_py/reports/metar.py: Metar.as_dict", "aeromet_py/reports/taf.py: Taf.as_dict"]}
{"id": "C112", "title": "Equal values come from groups that state the same", "statement": "If the values decoded from two groups are equal in one of the units in which the library gives them, the two groups state the same: the same direction, speed or gust (in the same unit by the same number; the direction together with the variable flag gives back the direction as written), the same visibility, visual range, temperature, dew point, maximum or minimum temperature, sea temperature or wave height, or none in both. The two directions of a wind variation give back the group. Equal pressures of groups in the same unit have the same number; in different units they are less than a tenth of a hectopascal apart, and may be different ones (1000 hPa and 29.53 inches). Equal cover, eighths, type and height of clouds mean the same height and type and the same cover, up to SKC for CLR and NSC for NCD. The five descriptions of a weather group are equal exactly if intensity, descriptor and phenomenon are the same; those of a recent weather group give back the group. It holds between two METARs, and between a change of a TAF and a METAR.", "quantifier": "for all pairs of groups of a kind; for all pairs of METARs, and for all changes of TAFs and METARs, that are read, with any databases, clocks and options", "why_tests_cant": "The statement is about all pairs of texts of a group; tests compare the values of single groups with expected ones and never the values of two texts.", "anchors": ["aeromet_py/reports/models/metar/wind.py: MetarWind", "aeromet_py/reports/models/metar/wind_variation.py: MetarWindVariation", "aeromet_py/reports/models/metar/visibility.py: MetarPrevailingVisibility", "aeromet_py/reports/models/metar/cloud.py: Cloud", "aeromet_py/reports/models/metar/weather.py: MetarWeather", "aeromet_py/reports/models/metar/pressure.py: MetarPressure", "aeromet_py/reports/models/metar/temperatures.py: MetarTemperatures"]}
{"id": "C113", "title": "What constructing a METAR prints", "statement": "Constructing a METAR writes to standard output, trend by trend, one line for every FM, TL and AT group that is decoded, and nothing else: the instant of the last AT group of the trend up to there, counted from the time of the report, or None when there is none. At most two lines are printed for each trend, and none when no period group is decoded. The lines do not depend on truncate: a report that is rejected for its unparsed groups has printed the same ones before. For any text, also when an exception is raised, every line is None or an instant of the calendar. The report or the exception is the same as that of the model without output, so that the other properties hold of the constructor with its output. Running the package prints one line, the sections of its METAR with the trend that stands behind the remark, and raises nothing, in any month of a four digit year.", "quantifier": "for all texts, databases, clocks and options (result, truncate, any); for all METARs that are read (lines, count)", "why_tests_cant": "The tests of the library do not look at standard output, where the line left over from debugging writes; and the statement is about all texts with any number of period groups.", "anchors": ["aeromet_py/reports/models/metar/weather_trend.py: ChangePeriod._handle_time_period", "aeromet_py/reports/models/metar/trend_indicator.py: MetarTrendIndicator.add_period", "aeromet_py/__main__.py"]}
{"id": "C114", "title": "The tables only describe the station", "statement": "With other tables of stations and countries the same text raises the same exceptions, for METARs and TAFs. When it is read, the two reports have every attribute in common but the row found for the station and the text, and the code of the station is the same. The texts are equal, or they are the same before and after the description of the station, once by each table. Their dictionaries have the same keys in the same order and the same values but under station. Tables with the same first row for every ICAO code and the same name for every country give the same reports: the order of the other rows and later rows of a code play no role.", "quantifier": "for all pairs of tables, and all texts, clocks and options", "why_tests_cant": "It relates two runs with different tables. The tests run with the one table of the library, and no test changes it.", "anchors": ["aeromet_py/reports/models/base/report.py: Report._handle_station", "aeromet_py/reports/metar.py: Metar.__init__", "aeromet_py/reports/taf.py: Taf.__init__", "aeromet_py/reports/models/base/station.py: Station._get_data"]}
{"id": "C115", "title": "The characters of the texts of reports", "statement": "Every character of the text of a METAR is ASCII, the degree sign, a decimal digit (of any script) of the text of the report, or a character of the tables of stations and countries. The text of a TAF has no character of the report outside ASCII at all; that of a change period of a METAR is ASCII and degree signs, and that of a change of a TAF is ASCII. With the tables of the library the other characters can only be the letters \u00c5, \u00e7, \u00e9 and \u00f4 of the names of countries.", "quantifier": "for every text on which a constructor succeeds, every station table (and that of the library), clock and arguments", "why_tests_cant": "The patterns accept digits of all scripts and the text may hold any character behind RMK or in groups that are not understood; no test has a character outside ASCII in a report.", "anchors": ["aeromet_py/reports/models/base/string_attribute.py: StringAttributeMixin", "aeromet_py/reports/metar.py: Metar", "aeromet_py/reports/taf.py: Taf", "aeromet_py/reports/models/metar/weather_trend.py: ChangePeriod", "aeromet_py/reports/models/taf/change_forecast.py: ChangeForecasted", "aeromet_py/database/stations.py: STATIONS", "aeromet_py/database/countries.py: COUNTRIES"]}
