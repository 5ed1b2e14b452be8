import json
P=[]
def p(id,title,statement,quant,why,anchors):
    P.append(dict(id=id,title=title,statement=statement,quantifier=quant,why_tests_cant=why,anchors=anchors))
R="aeromet_py/reports/models/"
p("C01","White space layout of a report does not matter",
 "If a report is a sequence of words (non-empty, free of white space and of '='), then Metar(...) and Taf(...) give the same raw_code, namely the words joined by single blanks, whichever runs of blanks, newlines and tabs separate the words and whatever white space surrounds the text.",
 "for every list of words, every choice of separators (a run of blanks/newlines/tabs of any length between each pair) and every leading/trailing white space",
 "the number of words, the separators and their lengths are unbounded",
 [R+"base/report.py: Report.__init__","aeromet_py/reports/models/base/report.py: Report.raw_code"])
p("C02","The end-of-message sign '=' is inert",
 "raw_code never contains '='; and a report text that does not end in white space is parsed to the same raw_code with and without a trailing '='.",
 "for every input text","all strings are quantified over",[R+"base/report.py: Report.__init__","aeromet_py/reports/models/base/report.py: Report.raw_code"])
p("C03","raw_code is a normal form",
 "For a text without '=', parsing the raw_code of a report again gives the same raw_code; raw_code contains no newline, no tab, no two adjacent white space characters, and no leading or trailing white space. (With '=' in the middle of the text this fails: 'A = B' keeps two adjacent blanks.)",
 "for every input text","all strings are quantified over",[R+"base/report.py: Report.__init__","aeromet_py/reports/models/base/report.py: Report.raw_code"])
p("C04","Only the empty text is rejected by assertion",
 "Metar(code) and Taf(code) raise AssertionError exactly when code is the empty string; none of the inner assertions (direction, speed and temperature code lengths, cardinal not None) can be triggered by any report text.",
 "for every report text, year, month, truncate flag and clock reading",
 "absence of a failure over all texts cannot be sampled",
 [R+"base/report.py: Report.__init__",R+"base/wind.py: Direction.__init__, Speed.__init__",R+"base/temperature.py: Temperature.__init__"])
p("C05","Every group is either decoded or reported as unparsed, exactly once",
 "When a section is parsed, each of its blank-separated groups is either consumed by exactly one handler or appears in the returned unparsed list; the unparsed list is exactly the non-consumed groups in their original order and with their multiplicities, also when equal groups are repeated.",
 "for every list of handlers (any patterns) and every section text",
 "handler lists, group counts and repetitions are unbounded; list.remove deletes the first equal element, which is only right by an ordering argument",
 [R+"base/__init__.py: parse_section"])
p("C06","Handlers fire at most once, in table order, first applicable wins",
 "Each group goes to the first handler, after the handler used last, whose pattern matches it; so the handlers fire in strictly increasing table order and none fires twice.",
 "for every list of handlers and every section text","unbounded inputs",[R+"base/__init__.py: parse_section"])
p("C07","truncate only decides between an error and the same report",
 "With truncate=True the constructor raises ParserError exactly when the report parsed with truncate=False has a non-empty unparsed_groups; otherwise both constructions give the same report. With truncate=False ParserError is never raised. Any other exception is the same for both settings.",
 "for every text, year, month and clock","two-run (relational) statement over all inputs",
 ["aeromet_py/reports/metar.py: Metar._parse_weather_trend","aeromet_py/reports/taf.py: Taf._parse_changes_forecasted"])
p("C08","unparsed_groups of a report = body leftovers followed by the leftovers of every trend/change",
 "unparsed_groups of a Metar (Taf) is the concatenation, in order, of the unparsed groups of the body and the unparsed_groups of each weather trend (change forecasted).",
 "for every text that is parsed without exception","unbounded inputs",
 ["aeromet_py/reports/metar.py: Metar._parse_body, _parse_weather_trend","aeromet_py/reports/taf.py: Taf._parse_body, _parse_changes_forecasted"])
p("C09","METAR sections are cut at the trend and remark keywords without loss",
 "A text made of body words, then trend parts each opened by NOSIG/TEMPO/BECMG, then an optional remark opened by RMK (no other word starting with a keyword, no '|') is cut so that body, trend and remark are exactly those words joined by blanks.",
 "for every list of body words, every list of trend parts and every remark","unbounded lists of words",
 ["aeromet_py/reports/metar.py: Metar._handle_sections","aeromet_py/utils/split.py: split_sentence"])
p("C10","Shape of the METAR sections",
 "For any text whatsoever: body contains no blank followed by NOSIG, TEMPO, BECMG or RMK; trend is empty or starts with one of NOSIG/TEMPO/BECMG; remark is empty or starts with RMK; no section contains '|'.",
 "for every text","all strings",["aeromet_py/reports/metar.py: Metar._handle_sections, body, trend, remark"])
p("C11","TAF sections are cut at FM/TEMPO/BECMG/PROB without loss",
 "For a text without '|' and with no white space but blanks: body, and a blank and weather_changes when there are changes, spell the raw_code (reading '_' as a blank); every change code starts with FM, TEMPO, BECMG or PROB and holds no further one; in the body such a word follows a blank only after a word that ends with TAF. When the words of the text are a body and changes each opened by such a word (the first five pairs PROB30/PROB40 TEMPO counting as one word each), the sections are exactly these. (The stronger wording 'the body holds no opening word' is false, see the cases beside the theorem.)",
 "for every text without '|' and other white space; for every list of body words and list of changes","all strings, any number of changes",["aeromet_py/reports/taf.py: Taf._handle_sections"])
p("C12","TAF of stations whose ICAO code starts with FM",
 "In 'TAF FMxx ...' the station group stays the second word of the body. With a modifier, 'TAF AMD FMxx ...', the text is cut at the station: the body is only 'TAF AMD' and the station is lost, so the unrestricted claim is false.",
 "for every list of words that follows","unbounded continuation",["aeromet_py/reports/taf.py: Taf._handle_sections"])
p("C13","The time group gives the stated day, hour and minute in the requested year and month",
 "A group DDHHMMZ in a report constructed with year in 1000..9999 and month in 1..12 gives a report time with exactly that year, month, day, hour and minute when that is an existing calendar date and hour is not 24; otherwise construction raises ValueError. Without a year or month argument those of the clock apply.",
 "for every day 01-31, hour 00-24, minute 00-59, year, month","the date arithmetic is over all years and includes leap years; tests sample a few dates",
 [R+"base/time.py: Time, Time.from_metar","aeromet_py/utils/metar_regexp.py: TIME"])
p("C14","Every report time is a valid calendar date-time",
 "Whatever the input, every time exposed by a constructed report (time, valid, change periods, trends, temperature times) has month 1..12, day within the month, hour 0..23, minute 0..59 and year 1..9999.",
 "for every text, year, month, clock","invariant over all inputs",
 [R+"base/time.py",R+"taf/valid.py",R+"taf/change_indicator.py",R+"taf/temperature.py",R+"metar/trend_indicator.py"])
p("C15","With year and month given, a report does not depend on the clock",
 "Metar(code, year, month) gives the same report or the same exception at any wall-clock time. Taf(code, year, month) does so when its body has a time group and a validity group; without a time group its time is the first day of the current month whatever year and month were given, and without a validity group its default validity follows the clock even though the report has a time.",
 "for every text, year, month and every two clocks (of existing months of four digit years)","two-run statement over all inputs and all clock readings",
 ["aeromet_py/reports/metar.py: Metar.__init__","aeromet_py/reports/taf.py: Taf.__init__",R+"base/time.py: Time.__init__",R+"taf/valid.py: TafValidMixin"])
p("C16","Wind group in knots",
 "A wind group dddff(f)(Gff(f))KT gives the direction ddd in degrees, the speed and the gust as exactly the stated numbers of knots; '///' or '//' give None, VRB gives variable and no direction; a missing gust gives None.",
 "for every direction, speed and gust the grammar admits","10^7 groups; and digits may be any Unicode decimal digits",
 [R+"metar/wind.py: MetarWind",R+"base/wind.py: Direction, Speed"])
p("C17","Wind group in metres per second is converted to knots",
 "A wind group in MPS gives speed and gust in knots equal to the stated number divided by 0.51444444 up to a relative error below 1e-14; missing values stay None.",
 "for every speed and gust the grammar admits","floating point rounding for all values",
 [R+"metar/wind.py: MetarWind",R+"base/wind.py: Wind._mps2kt"])
p("C18","Cardinal direction is the 22.5-degree sector that contains the direction",
 "For every direction value in [0,360] cardinal is the unique compass point whose sector of width 22.5 degrees centred on it contains the value; a missing direction has no cardinal.",
 "for every binary64 direction in [0,360]","continuum of values; boundaries between sectors",
 [R+"base/wind.py: Direction.cardinal, COMPASS_DIRS"])
p("C19","Cardinal codes round-trip",
 "Direction.from_cardinal(c).cardinal == c for each of the 16 compass points; any other string raises ValueError.",
 "for every string","every string that is not a compass point must be rejected",[R+"base/wind.py: Direction.from_cardinal"])
p("C20","Wind variation group",
 "A group dddVddd gives both directions in degrees exactly.",
 "for every pair of directions 010..360","1296 pairs times Unicode digits",[R+"metar/wind_variation.py: MetarWindVariation"])
p("C21","Visibility in metres",
 "A visibility group of four digits gives that number of metres, except 9999 which gives 10000; '////' gives None; a one- or two-letter compass suffix gives the compass direction.",
 "for every four digit group and suffix","10^4 times 12 groups",[R+"metar/visibility.py: MetarPrevailingVisibility, MetarMinimumVisibility",R+"base/distance.py: Distance"])
p("C22","Visibility in statute miles",
 "A group in SM with integer part n and/or fraction a/b gives (n + a/b) * 1852 metres up to a relative error below 1e-14.",
 "for every n in 0..99 (or none) and every a, b in 0..9 with b != 0","floating point rounding for all values",[R+"metar/visibility.py: _from_sea_miles"])
p("C23","Visibility in kilometres and CAVOK",
 "nKM gives exactly 1000 n metres; CAVOK gives 10000 metres and cavok True, and cavok is True for no other group.",
 "for every group","all strings",[R+"metar/visibility.py: MetarPrevailingVisibility"])
p("C24","Which visibility groups crash the parser",
 "A group accepted as METAR prevailing visibility raises an exception exactly when its suffix is EE, EW, WE or WW (ValueError), or it is in KM with a fraction and no integer (TypeError), or in SM with denominator 0 (ZeroDivisionError).",
 "for every string","exact characterisation over all strings",[R+"metar/visibility.py: MetarPrevailingVisibility",R+"base/wind.py: from_cardinal"])
p("C25","Runway visual range",
 "A runway range group gives the runway name, the low and high ranges in metres (exactly when given in metres, up to relative error 1e-15 when in FT), the M/P limits and the tendency.",
 "for every group the grammar admits","10^8 groups",[R+"metar/runway_range.py: MetarRunwayRange, set_runway_name"])
p("C26","Weather groups",
 "A weather group made of an optional intensity, optional descriptor and at most one phenomenon is decoded to the table descriptions of exactly those parts and None for the absent ones.",
 "for every combination and for every string","exact language of a regular expression over all strings",[R+"metar/weather.py: MetarWeather"])
p("C27","Cloud layers",
 "A cloud group gives the cover and oktas of its code, the cloud type, and a base height of 100*h feet: height_in_meters is within 1e-9 m of 30.48*h and height_in_feet within 1e-8 of 100*h; undefined heights give None.",
 "for every cover, height 000-999 and type","float formatting with ten decimals and re-parsing for all heights",[R+"base/cloud.py: Cloud.from_metar"])
p("C28","Ceiling",
 "ceiling is True exactly when some layer is BKN or OVC with base at or below 1500 feet, when no BKN/OVC layer before it lacks a height; a BKN/OVC layer without height reached first makes it raise TypeError. The layers of a METAR, trend, TAF or TAF change are those of its decoded cloud groups.",
 "for every list of layers and for every constructed report","lists of layers and boundary rounding at exactly 1500 ft",[R+"base/cloud.py: CloudList.ceiling"])
p("C29","Flight rules",
 "flight_rules is the first category in the order VLIFR, LIFR, IFR, MVFR, VFR whose ceiling bound (60, 150, 300, 900, 40000 m) exceeds the base of the first BKN/OVC/VV layer or whose visibility bound (800, 1600, 5000, 8000, 20000 m) exceeds the prevailing visibility. (A report with visibility of 20 km or more and no ceiling gets None rather than VFR: the claim 'None only when there is no data' is false.)",
 "for every visibility and list of clouds","all pairs of reals and all layer lists",[R+"base/flight_rules.py: FlightRulesMixin.flight_rules"])
p("C30","Flight rules are monotone",
 "Lowering the visibility or the ceiling never improves the category.",
 "for every pair of conditions","two-run statement over all values",[R+"base/flight_rules.py"])
p("C31","should_be_cavok",
 "On a freshly parsed report should_be_cavok() is True exactly when there is no weather group, no ceiling, a visibility of at least 10 km is given, at least one cloud group is given, no layer is CB or TCU, every layer with a height is at or above 5000 ft, and every BKN or OVC layer has a height. (VV layers are compared with 'is', whose outcome on equal texts Python leaves open: if it is True there must also be no VV layer.)",
 "for every list of layers, weathers, visibility","unbounded combinations and rounding at 5000 ft",[R+"metar/should_be_cavok.py: should_be_cavok",R+"base/cloud.py"])
p("C32","Asking should_be_cavok twice",
 "If should_be_cavok() returns True on a freshly parsed report, the report is left exactly as it was, so asking again returns True again. The answer False is not stable: the early exit leaves the cursor of the clouds list in the middle, so a report with a single FEW030 layer answers False, True, False, ..., and iterating the clouds after the first answer skips layers.",
 "for every report","history-dependent behaviour; tests call it once",[R+"metar/should_be_cavok.py",R+"base/group.py: GroupList.__next__"])
p("C33","Temperatures",
 "A temperature group gives temperature and dew point as the nearest double to the signed stated number of degrees, '//', 'XX' and 'MM' give None.",
 "for every sign and number","all groups, Unicode digits, negative zero",[R+"metar/temperatures.py: MetarTemperatures",R+"base/temperature.py"])
p("C34","Pressure",
 "Qnnnn gives exactly nnnn hPa; Annnn gives nnnn/100 inches of mercury converted with 0.02953 within 1e-9 hPa; missing values give None. (A bare number above 2500 is divided by 0.02953 without division by 100, giving pressures above 84000 hPa.)",
 "for every four digits","float formatting and re-parsing for all values",[R+"metar/pressure.py: MetarPressure"])
p("C35","Wind shear groups",
 "WS RWYnnX / WS RnnX groups give the runway name, WS ALL RWY, if it is the only such group, gives all_runways and no names; otherwise names lists exactly the runways of the groups in order.",
 "for every list of up to three runways","rewriting of the text by several passes",[R+"metar/windshear.py","aeromet_py/utils/parser.py: sanitize_windshear"])
p("C36","Sea state group","Wtt/Ss and Wtt/Hhhh give temperature, state description and wave height hhh/10 metres.",
 "for every temperature, state, height","all groups",[R+"metar/sea_state.py"])
p("C37","Runway state group","A runway state group decodes deposit, contamination, depth and friction by the WMO tables, with depths 01..90 in mm and friction 00..90 as 0.xx, SNOCLO and CLRD flagged.",
 "for every group the grammar admits","10^8 groups",[R+"metar/runway_state.py"])
p("C38","Recent weather group","RExx groups are decoded to the table descriptions of their parts.",
 "for every string","exact language over all strings",[R+"metar/recent_weather.py"])
p("C39","Bounded lists never exceed their capacity",
 "After any sequence of operations a GroupList holds at most max_items groups; add on a full list raises RangeError and leaves the list unchanged; add on a non-full list appends.",
 "for every sequence of operations","all histories",[R+"base/group.py: GroupList"])
p("C40","Iteration over a GroupList",
 "Iterating a list from the reset state yields every group once in order and leaves it reset, so complete iterations can be repeated; an abandoned iteration is resumed by the next one instead of starting over.",
 "for every list and every number of steps","all histories",[R+"base/group.py: GroupList.__iter__, __next__"])
p("C41","as_dict of a list keeps every group under its own ordinal label",
 "GroupList.as_dict() has one entry per group, with distinct labels first..tenth in order (the ninth label is spelt 'nineth'). The lists of a constructed METAR or TAF never outgrow the capacities of the source (3 runway ranges, weathers and wind shears, 4 clouds, 2 trends; 2 maximum and 2 minimum temperatures, 8 changes), so they cannot run out of labels.",
 "for every list up to the capacity, and for the lists of every constructed report","all lists",[R+"base/group.py: GroupList.as_dict"])
p("C42","Trend periods lie in the two-hour window",
 "In a METAR trend, FMhhmm/TLhhmm/AThhmm with hh:mm inside the two hours after the report time denote the unique instant of the window [report, report+2h] with that clock time; the last group of each kind counts and without them the period is the whole window. Outside the window a clock time is not refused: the minutes are taken in the hour of the report if that hour is named, in the next hour if that one is named, and otherwise, whatever hour is named, in the second next hour. (Hour 24 is accepted but never resolved to midnight.)",
 "for every report time (all dates) and every hh:mm in the window","date arithmetic across midnight, month and year ends",[R+"metar/trend_indicator.py: MetarTrendIndicator.add_period"])
p("C43","TAF valid period",
 "For a valid group dd1hh1/dd2hh2 whose days are the day of issue or the day after, period_from and period_until are the stated instants, with hour 24 meaning midnight at the end of the day; the same holds for the period of a TAF change relative to the start of the validity. Any day other than the day of issue is taken as the day after it. (So if the until day is two days after the issue, the library returns the day after: the unrestricted claim is false.)",
 "for every issue time and every group","date arithmetic over all dates",[R+"taf/valid.py: Valid.from_taf"])
p("C44","Default TAF validity","Valid.from_taf without a match starts one hour after the hour of the time it is given and lasts 24 hours. A TAF without a valid group gets the period from 01:00 of the first day of the current month, not from its time of issue (so the claim 'one hour after the issue hour' is false of reports).",
 "for every issue time","date arithmetic over all dates",[R+"taf/valid.py: Valid.from_taf"])
p("C45","FM change groups get the first matching day on or after the start of validity",
 "FMddhhmm resolves to the first date not before the day the TAF validity starts whose day of month is dd, at hh:mm; the search always ends, except by OverflowError at the end of year 9999.",
 "for every start of validity and every dd, hh, mm","termination of a loop over dates",[R+"taf/change_indicator.py: TafChangeIndicator.__init__"])
p("C46","Adding a TAF change keeps the list and closes the previous FM period",
 "Adding a change appends it and keeps all previous changes in order; if it is an FM or BECMG change, the last change that is not PROB/TEMPO, if it is FM, gets its until time set to one hour before the start of the new change, and nothing else changes.",
 "for every list of previous changes","unbounded histories; the code pops and re-adds elements",[R+"taf/change_forecast.py: TafChangesForecasted.add"])
p("C47","TAF temperatures",
 "TXnn/ddhhZ goes to max_temperatures and TNnn/ddhhZ to min_temperatures in order, with the stated value and the stated instant when dd is the day of issue or the next one.",
 "for every list of groups and issue time","unbounded",[R+"taf/temperature.py","aeromet_py/reports/taf.py: _handle_temperature"])
p("C48","NIL and CNL","missing.is_missing is True exactly when a NIL group was consumed, cancelled.is_cancelled exactly when a CNL group was consumed.",
 "for every text","all strings",[R+"taf/missing.py",R+"taf/cancelled.py"])
p("C49","Unit conversions",
 "Every in_<unit> property is None exactly when the value is None. For the units with an exact ratio the result differs from the exact conversion by a relative error below 1e-15; for the units converted with a rounded factor it differs from the exact conversion by no more than the accuracy of that factor; temperatures a*t+b are within 1e-15*(a|t|+b). All conversions are monotone.",
 "for every value","all doubles",["aeromet_py/utils/conversions.py: Conversions",R+"base/numeric.py: converted"])
p("C50","Round trip of a canonical METAR",
 "Rendering any METAR record (type, station, time, modifier, wind, variation, visibility, minimum visibility, up to three runway ranges, up to three weather groups, up to four cloud layers, temperatures, up to two pressures, recent weather, up to three wind shears, sea state, runway state; each optional part present or absent), with a remark or without, in any white-space layout, and parsing it raises nothing and gives a report whose every attribute states what the record states (of two pressures the last), with no trend and no unparsed group. Conditions on the record: the station does not begin with RMK, the visibility is one the library can convert, a pressure without unit follows temperatures, a visibility of two words is not the last group. Without each of the conditions on station, pressure and two-word visibility the claim fails.",
 "for every record, every remark, every layout of white space, every sane clock, year from 1000 and month","product of all groups, present or absent, with unbounded Unicode digit spellings",
 ["aeromet_py/reports/metar.py: Metar"])
p("C51","Round trip of a canonical TAF",
 "Rendering any TAF record (modifier, station, time, NIL, period, CNL, wind, visibility, up to three weather groups, up to four cloud layers, up to two maximum and two minimum temperatures in any order, and up to eight changes TEMPO, BECMG, PROB30/40, PROB30/40 TEMPO or FM, each with its period and conditions), in any white-space layout, and parsing it raises nothing and gives a report whose every attribute states what the record states, with no unparsed group. Every change begins and ends when its period says, an FM change begins at its instant and lasts until one hour before the next FM or BECMG change or else as long as the report, and any other change without period has the period of the report. Conditions on the record: no station that opens a change or is cut after AMD/COR, a weather group beginning with M or U only after a visibility, a two-word visibility not last, at most five PROB TEMPO pairs, no bare PROB, changes only with a report period. Without each of five of these conditions the claim fails.",
 "for every record, every layout of white space, every sane clock, year from 1000 to 9997 and month","product of all groups and unbounded change histories with Unicode digit spellings",["aeromet_py/reports/taf.py: Taf"])
p("C52","Which exceptions a constructor can raise",
 "Metar(...) and Taf(...) raise only exceptions from a fixed list (AssertionError, ParserError, ValueError, TypeError, ZeroDivisionError, RangeError, OverflowError, and for TAF AttributeError), each of which is raised for some text; IndexError and KeyError are never raised.",
 "for every text","absence over all inputs",["aeromet_py/reports/metar.py: Metar","aeromet_py/reports/taf.py: Taf"])
p("C53","The code of a decoded group is the text of the group",
 "The code property of every decoded group equals the group of the section that was consumed, with '_' shown as a blank; the code of a change indicator is the indicator group followed by its period groups, and the code of an FM indicator is the group as it stands.",
 "for every text","all strings",[R+"base/group.py: Group.code"])
p("C54","Station lookup",
 "The station group exposes the first row of the stations table with that ICAO code, or None for every attribute when there is none; the ICAO attribute then equals the code.",
 "for every code and table","all tables and codes",[R+"base/station.py: Station"])
p("C55","Sanitising only joins words",
 "sanitize_visibility joins the leftmost whole number and fraction of miles, three times at most; sanitize_windshear joins every 'WS ALL RWY' and then the leftmost 'WS R(WY)', three times at most; sanitize_change_indicator joins the leftmost PROB30/PROB40 and TEMPO, five times at most. Nothing else changes: texts without the split groups are unchanged, and apart from white space, '_' and (for wind shear) the optional 'WY' the characters are the same. On a text of words the result is the text of the joined words.",
 "for every text","all strings",["aeromet_py/utils/parser.py"])
p("C56","str() of a report lists the decoded groups in order",
 "str(report) consists of one line for each decoded group of the body, in the order of the attributes, each the str() of the attribute the report holds (of two pressure groups both are shown), followed by the text of each trend or change. The text of a METAR trend introduced by TEMPO, BECMG or NOSIG is its indicator with the finally decoded period and one line for each other group. (False of the library: a trend introduced by another accepted word such as TEMPOX repeats its period; a TAF shows of each change only the indicator, with the end an FM change had before a later change cut it short.)",
 "for every text of a constructed report","all strings",[R+"base/string_attribute.py"])
p("C57","Types and modifiers always have a description","Every group accepted as report type or modifier has a non-None description.",
 "for every string","all strings",[R+"base/type.py",R+"base/modifier.py"])
p("C58","Remarks do not influence the decoded data",
 "Appending a remark (a word starting with 'RMK' followed by words that do not start with a trend keyword or RMK) to any METAR text changes only raw_code and the remark section of the report; a text that is refused is refused with the same exception, up to the code quoted in the ParserError message.",
 "for every METAR text and every remark","two-run statement over all texts",["aeromet_py/reports/metar.py: Metar._handle_sections"])
p("C59","An unknown word is only reported",
 "Without truncation: if one more word, matched by no handler, is written anywhere in the body of a METAR or TAF, the report has the same decoded data, texts of the other sections, trends and changes; only its code, its body and the list of unparsed groups differ, and the latter is the old one with the word inserted. A report that was refused is refused with the same exception. The same holds of a word in a trend and in a change. (The word must not be joined with a neighbour by the preparation of the text, nor open a section.)",
 "for every report text made of words, every place in the body, every word that matches no handler, every clock and station table","two-run statement over all texts",[R+"base/__init__.py: parse_section","aeromet_py/reports/metar.py: Metar.__init__","aeromet_py/reports/taf.py: Taf.__init__",R+"metar/weather_trend.py: ChangePeriod",R+"taf/change_forecast.py: ChangeForecasted"])
p("C60","as_dict mirrors the attributes",
 "as_dict() of a constructed report never raises, and its leaves are exactly the attributes of the report, each at the path given by a flat table of keys: the lists of the report under ordinal labels, those of trends and changes by index. (The dictionary of a pressure has no code, that of a TAF temperature the code of its time, which is None, and those of trends and changes contain neither the indicator nor the unparsed groups.)",
 "for every constructed METAR and TAF","all reports",["aeromet_py/reports/metar.py: Metar.as_dict","aeromet_py/reports/taf.py: Taf.as_dict"])
p("C61","Text of a wind",
 "str() of the object decoded from a wind group is: the compass point and the degrees in brackets (or 'variable wind', or nothing when unknown), the speed in knots with one decimal and ' kt', and ' gust of ' with the gust, separated by single blanks; metres per second are shown converted, within half a decimal. A wind variation is shown as 'from <point> (<degrees>) to <point> (<degrees>)'. (Finding: zero values lose their unit and brackets, and a gust of zero is not shown.)",
 "for every wind group of the grammar, and for the wind of every constructed METAR, trend, TAF and change","all spellings of the groups, including all Unicode digits",[R+"metar/wind.py: MetarWind.__str__",R+"metar/wind_variation.py: MetarWindVariation.__str__"])
p("C62","Text of visibilities and runway visual ranges",
 "str() of a visibility is the kilometres with one decimal followed by ' km' and, if a direction is given, ' to <point> (<degrees>)'; CAVOK reads 'Ceiling and Visibility OK'. str() of a runway visual range gives the runway, the limits and metres of both values, and the tendency. (Finding: an upper value of zero is not shown.)",
 "for every group of the grammar, and for the groups of every constructed METAR, trend, TAF and change","all spellings of the groups",[R+"metar/visibility.py: __str__",R+"metar/runway_range.py: MetarRunwayRange.__str__"])
p("C63","Text of weather groups",
 "str() of a weather group is the descriptions of intensity, descriptor, precipitation, obscuration and other weather, those present, in this order, separated by single blanks; recent weather is shown the same way without intensity.",
 "for every group of the grammar, and for the groups of every constructed METAR, trend, TAF and change","all combinations of the parts",[R+"metar/weather.py: MetarWeather.__str__",R+"metar/recent_weather.py: MetarRecentWeather.__str__"])
p("C64","Text of clouds",
 "str() of a cloud group is the cover, ' at ' the height in feet, which is exactly 100 times the reported digits although it is stored in metres, and ' of ' the type. (Finding: a layer at height zero is shown 'at undefined height', and the type is not shown without a height.)",
 "for every cloud group of the grammar, and for the clouds of every constructed METAR, trend, TAF and change","all three-digit heights in all digit alphabets, conversion to metres and back",[R+"base/cloud.py: Cloud.__str__"])
p("C65","Text of temperatures and pressures",
 "str() of a temperature group is 'temperature: <t>°C | dewpoint: <d>°C' with sign and one decimal, or that one of them is missing; str() of a pressure is hectopascals with one decimal, also for inches of mercury. (Findings: zero has no unit, M00 is shown '-0.0', an unknown temperature is left blank beside a dew point of zero.)",
 "for every group of the grammar, and for the groups of every constructed METAR","all spellings of the groups",[R+"metar/temperatures.py: MetarTemperatures.__str__",R+"base/pressure.py: Pressure.__str__"])
p("C66","Text of wind shear, sea and runway state",
 "str() of a wind shear group names the runway or 'all', str() of a sea state group gives temperature, significant wave height and state of the sea, str() of a runway state group gives runway, deposits, depth, contamination and friction, each as the group says. (Finding: a sea temperature or wave height of zero is shown as missing.)",
 "for every group of the grammar, and for the groups of every constructed METAR","all spellings of the groups",[R+"metar/windshear.py: __str__",R+"metar/sea_state.py: __str__",R+"metar/runway_state.py: __str__"])
p("C67","Round trip of a METAR with trends",
 "Rendering any METAR record followed by at most two trends (NOSIG, TEMPO or BECMG, each with up to two periods FM, TL or AT within the two hours of the report, wind, visibility, up to three weather groups and up to four cloud layers), with a remark or without, in any white-space layout, and parsing it raises nothing and gives a report whose body states what the record states and whose trends state, one by one and in order, what the trends of the record state: opening, code, instants of the periods, conditions; no group is left unparsed. Conditions: those of the record, the second trend is neither NOSIG nor bare. Without them the claim fails: three trends raise RangeError, and a second NOSIG or bare TEMPO stays unparsed in the first trend.",
 "for every record, every list of trends, every remark, every layout of white space, every sane clock, year from 1000 to 9998 and month","product of all groups of the body and of the trends with unbounded digit spellings and layouts",
 ["aeromet_py/reports/metar.py: Metar",R+"metar/weather_trend.py: ChangePeriod","aeromet_py/utils/split.py: split_sentence"])
p("C68","Text of a METAR written from a record",
 "str() of the report parsed from the text of a METAR record with trends is one line for each group, in the order of the code and each saying what the group states: the name of the report type, the row of the station, the instant of the report, the modifier, wind, variation, visibilities, runway ranges, weather, clouds, temperatures, pressures, recent weather, wind shear, sea and runway state, then for each trend its meaning with the instants AT, or FM and TL (the time of the report and two hours later when not stated), and its conditions; only white space at the ends is removed.",
 "for every record, every list of trends, every remark, every layout of white space, every station table, every sane clock, year from 1000 to 9998 and month","product of all groups of the body and of the trends with unbounded digit spellings",
 ["aeromet_py/reports/metar.py: Metar",R+"base/string_attribute.py",R+"metar/weather_trend.py: ChangePeriod.__str__"])
p("C69","Text of a TAF written from a record",
 "str() of the report parsed from the text of a TAF record is one line for each group of the body, in the order of the text and each saying what the group states (report type, modifier, station, instant, NIL, period, CNL, wind, visibility, weather, clouds, temperatures with their instants), then for each change its meaning and period followed by an empty line; only white space at the ends is removed. (Findings: the conditions of a change are not shown, and an FM change is shown as lasting until the end of the report even if a later change ends it.)",
 "for every record, every layout of white space, every station table, every sane clock, year from 1000 to 9997 and month","product of all groups of the body and of the changes with unbounded digit spellings",
 ["aeromet_py/reports/taf.py: Taf",R+"base/string_attribute.py",R+"taf/change_indicator.py: TafChangeIndicator",R+"taf/temperature.py: TafTemperature.__str__"])
p("C70","JSON text of a report",
 "to_json() of a report is printable ASCII on one line, and a reader written from RFC 8259 reads from it exactly the dictionary as_dict() gives: every string character for character, every number as the same double (also -0.0), every entry in its order. Hence reports with equal JSON texts have equal values. Condition: text and tables are Unicode text; a string with a surrogate pair is written like the character the pair stands for.",
 "for every text of Unicode characters on which the constructor succeeds, every station table, clock and arguments; the round trip also for every value of nested dictionaries, lists, strings and doubles","all doubles and all strings of Unicode; shortest decimal representation of every double",
 [R+"base/report.py: Report.to_json",R+"base/group.py: Group.to_json"])
p("C71","What a dictionary is made of",
 "In the dictionary of a constructed report every number is a finite binary64 number and every character outside ASCII comes from the text of the report or from the tables of stations and countries: decoding introduces no other text.",
 "for every text on which the constructor succeeds, every station table, clock and arguments","all Unicode texts, including digits outside ASCII that the patterns accept",
 [R+"base/report.py: Report.as_dict","aeromet_py/reports/metar.py: Metar.as_dict","aeromet_py/reports/taf.py: Taf.as_dict"])
p("C72","The stations of the library",
 "In the table of stations that comes with the library every ICAO code is missing or four capital letters or digits, and no two rows share an ICAO code or a SYNOP code; latitudes, longitudes (except that of CYYW) and elevations are well formed and on Earth. A station is therefore found by its ICAO code or SYNOP code as the one row that has it, and the country shown is the one name of its country code (none for CS, DN, TP and AN). A METAR or TAF that carries the ICAO code of any row is read as a report of exactly that row, and no report shows a row without ICAO code. IATA codes do not have this: PVG shows a station in Virginia, not Shanghai.",
 "for every row of the table of 9390 stations, every text on which a constructor succeeds, every record of any of these stations, every clock and arguments","9390 stations times all reports; the tests look up a handful of stations",
 ["aeromet_py/database/stations.py: STATIONS","aeromet_py/database/countries.py: COUNTRIES",R+"base/station.py: Station"])
p("C73","Which reports are refused, and with which exception",
 "Whether the constructor of METAR raises, and what, can be read off the groups of the text: the first group of the body that is refused decides (ValueError for a time that is no date, the exceptions of visibility groups); then, trend by trend, OverflowError if there is no date two hours after the report, TypeError for a period in a trend without indicator, the exceptions of visibility groups; RangeError for a third trend, after it has been read. For TAF the same holds with RangeError for a third highest or lowest temperature, then, change by change, AttributeError for a period in a change without indicator, the exceptions of visibility groups, AttributeError when a change that begins a period looks back over PROB and TEMPO and meets one without indicator, and RangeError for a ninth change. Nothing else makes the constructors raise, and they do not raise otherwise.",
 "for every text, every station table, every sane clock, every year from 1000 to 9999 (9998 for TAF) and month given or taken from the clock","all texts: the order in which faults of several groups meet decides which exception is seen",
 ["aeromet_py/reports/metar.py: Metar.__init__",R+"base/__init__.py: parse_section",R+"metar/weather_trend.py: ChangePeriod",R+"base/group.py: GroupList.add","aeromet_py/reports/taf.py: Taf.__init__",R+"taf/change_forecast.py: ChangeForecasted, TafChangesForecasted.add"])
p("C74","What the use of a report changes",
 "However a constructed report is used (iterating over its lists, should_be_cavok(), as_dict(), to_json(), str(), on the report and on its trends or changes), all its data stay as they were constructed; only the positions of the iterators of its lists change, and the text buffers of the changes of a TAF. Its text, flight rules and ceiling stay the same and as_dict() never raises. as_dict() shows of each trend or change only the weathers and clouds its iterators have not passed yet, and rewinds them, so that the next as_dict() is complete. If no trend or change is asked should_be_cavok() or iterated by hand, as_dict() always gives the same. (The unrestricted claim is false: after should_be_cavok() on a trend, as_dict() of the METAR loses clouds of the trend.)",
 "for every constructed METAR and TAF and every sequence of uses","all histories of calls",[R+"base/group.py: GroupList.__next__",R+"metar/should_be_cavok.py",R+"metar/weather_trend.py: Forecast.as_dict",R+"taf/change_forecast.py: ChangeForecasted.__str__"])
p("C75","Ranges of the decoded numbers",
 "The numbers of a constructed report lie in fixed ranges, whatever text it was made from: wind directions 0 to 360 degrees, speeds and gusts 0 to 1942 knots, variations 10 to 360 degrees, prevailing visibility 0 to 200017 m and minimum visibility and runway ranges 0 to 10000 m, directions of visibility 45 to 360 degrees, clouds 0 to 30450 m, temperatures of air, dew point, sea and forecast extremes -99 to 99 degrees, pressure 0 to 338605 hPa, waves 0 to 100 m; the same in trends and changes. (Finding: the ranges are those of the patterns and wider than physics; a bare 9999 is read as a pressure of 338604 hPa.)",
 "for every text on which the constructor succeeds, every station table, clock and arguments","all texts, all groups of the grammars in all units",
 [R+"metar/wind.py",R+"metar/visibility.py",R+"metar/cloud.py",R+"metar/temperatures.py",R+"metar/pressure.py",R+"metar/sea_state.py",R+"metar/runway_range.py",R+"taf/temperature.py"])
p("C76","Numbers handed over as text",
 "Speeds converted from metres per second, visibilities converted from statute miles, runway ranges converted from feet and wave heights are formatted with f\"{x}\" and parsed again by Speed and Distance. A double that is zero, or at least 0.001 and below 10^16 (which all of these are) arrives unchanged; its text is never the special text 9999 and is never too short for Speed.",
 "for every non-negative double that is zero or between 0.001 and 10^16","all doubles of the range, with the shortest decimal representation of each",
 [R+"base/wind.py: Wind._mps2kt",R+"base/wind.py: Speed",R+"base/distance.py: Distance",R+"metar/visibility.py: _from_sea_miles",R+"metar/runway_range.py: _set_range",R+"metar/sea_state.py"])
p("C77","Sections are decoded independently",
 "Let two texts be constructed at the same moment with the same year and month. If their bodies are the same, every attribute read from the body is the same, whatever the trends, changes and remark are; the trends and changes only add their own part to the text and to the unparsed groups. A METAR trend is determined by its own text and the time of the report, a TAF change by its own text and the valid period of the report, whatever stands around it; only the end of the period of an FM change depends on the next change.",
 "for every pair of report texts that can be constructed, every trend of one and every trend of the other, every database, clock, year and month","all pairs of texts that share a section, with any contents of the others",
 ["aeromet_py/reports/metar.py: Metar._parse_body, Metar._parse_weather_trend","aeromet_py/reports/taf.py: Taf._parse_body, Taf._parse_changes_forecasted",R+"metar/weather_trend.py: ChangePeriod",R+"taf/change_forecast.py: ChangeForecasted"])
p("C78","The body of a report read alone",
 "Constructing a report from the body of another one succeeds whenever the other was constructed (with truncate off, the same year, month and clock): the text is all body, there are no trends or changes, and every attribute read from the body is the one of the whole report. For METAR this is said of any text without '=' and '|' whose body is not empty, for TAF of texts that consist of body words and changes.",
 "for every report text as described, every database, clock, year and month","all texts, with any trends, changes and remarks behind the body",
 ["aeromet_py/reports/metar.py: Metar._handle_sections, Metar.__init__","aeromet_py/reports/taf.py: Taf._handle_sections, Taf.__init__",R+"base/report.py: Report.__init__"])
p("C79","Which words are ambiguous",
 "The only words that the patterns of two kinds of METAR groups both accept are: station and modifier (CORR, TEST, FINO, AUTO), station and visibility (M or P, then a digit and SM or KM, or two digits and M or U), station and weather (four-letter weather groups such as TSRA), station and cloud (VVCB), station and recent weather (RE and a two-letter code), visibility and minimum visibility (four digits or ////, with or without a direction), and both of these and pressure (four digits or ////). Every other word can only be read as one kind, wherever it stands. In trends and in changes of a TAF no word is ambiguous. In a TAF body exactly eight pairs of kinds share words, six of them with the visibility, whose pattern asks for the end of the word only after CAVOK.",
 "for every word without a line break, every pair of kinds, every list of groups","all words of any length, all 136 pairs of METAR patterns and all pairs of the others",
 ["aeromet_py/utils/metar_regexp.py: MetarRegExp","aeromet_py/utils/taf_regexp.py: TafRegExp","aeromet_py/reports/metar.py: Metar._parse_body","aeromet_py/reports/taf.py: Taf._parse_body",R+"metar/weather_trend.py: ChangePeriod._parse",R+"taf/change_forecast.py: ChangeForecasted._parse"])
p("C80","Temperatures converted back",
 "kelvin_to_celsius, fahrenheit_to_celsius and rankine_to_celsius compute t - 273.15, 5/9 (t - 32) and 5/9 (t - 491.67) up to the fraction 1e-15 of the magnitudes involved, and are monotone. A temperature of a report converted to kelvin, Fahrenheit or Rankine and back is the same temperature up to the fraction 4e-15 of its magnitude plus that of the shift.",
 "for every double","all doubles; the error of three roundings in a row",
 ["aeromet_py/utils/conversions.py: Conversions.kelvin_to_celsius, fahrenheit_to_celsius, rankine_to_celsius"])
p("C81","Lists of groups: access and text",
 "list[i] of a list of groups that respects its capacity is the group at that index, counted from the front or, negative, from the back; it raises RangeError exactly for indices from the capacity on and IndexError exactly for the other indices without a group. str of the runway ranges, weathers and clouds of a METAR, trend, TAF or change is what each of its groups states, in the order of the text, with ' | ' between neighbours; str of the wind shears is 'all runways' exactly when the single group says ALL, else the same form; str of the trends of a METAR record has one trend after the other on separate lines; str of the changes of a TAF record has for each change its meaning and the period it has in the end (of an FM change the one that later changes leave it), each followed by a line break and with another one between neighbours.",
 "for every list, every integer index, every constructed report (trends and changes: every well-formed record in every layout)","all lists and indices, all reports",
 [R+"base/group.py: GroupList.__getitem__, GroupList.__str__",R+"metar/windshear.py: MetarWindshearList.__str__",R+"metar/weather_trend.py: MetarWeatherTrends.__str__",R+"taf/change_forecast.py: TafChangesForecasted.__str__"])
p("C82","Dictionaries of change indicators",
 "as_dict of the indicator of a METAR trend holds the forecast window (init and end), the beginning and end of the period, the instant of the change (None exactly when there is none), the meaning and the code, each under its name, and nothing else; as_dict of the indicator of a TAF change holds its valid period, the meaning and the code.",
 "for every trend of every constructed METAR, every indicator of a TAF change","all trends with any period groups",
 [R+"metar/trend_indicator.py: MetarTrendIndicator.as_dict",R+"taf/change_indicator.py: TafChangeIndicator.as_dict"])
p("C83","Duration of a valid period",
 "The duration of the validity of a TAF and of its changes is the number of minutes from its beginning to its end. With a valid group (of a change: unless it is an FM change) it is the difference of the two stated hours, where a day other than the day of issue (for a change: other than the first day of the validity of the report) counts as the next one; it is a whole number of hours between -47 and 48, and 24 hours without a valid group. (Finding: a validity stated backwards has a negative duration and is not refused.)",
 "for every constructed TAF, every clock, every valid group","all texts, all days and hours, ends of months and years",
 [R+"taf/valid.py: Valid.duration",R+"taf/valid.py: Valid.from_taf"])
p("C84","Every quantity in every unit, from the text",
 "Whatever unit a quantity can be asked for in, the number given is the quantity that its group states: wind and gust speeds (from KT or MPS) in knots, m/s, km/h and mi/h to eight digits (mi/h: six); wind, variation and visibility directions in degrees, radians and gradians, and as the compass point in whose sector they lie (of a visibility, the point written); a wind is variable exactly when VRB is written; visibilities, runway visual ranges (from metres or feet) and cloud heights in metres, kilometres, sea miles and feet; temperatures and dew points in Celsius, kelvin, Fahrenheit and Rankine within 1e-12; pressures (from hPa or hundredths of inches) in hPa, inHg, mbar, bar and atm to six digits; sea temperature and wave heights. Asked for in the unit of the group the stated number itself comes out (MPS to 13 digits, inches to 7). Missing parts are None in every unit. A bare pressure above 2500 is excepted. A factor of zero in `converted` counts as no factor, which happens for none of the constants.",
 "for every group of each kind, every constructed METAR, trend, TAF and TAF change","all digits, units and signs of every group, all reports",
 [R+"base/numeric.py: Numeric.converted",R+"base/wind.py: Direction, Speed, Wind properties",R+"base/distance.py: Distance properties",R+"base/temperature.py: Temperature properties",R+"base/pressure.py: Pressure properties",R+"metar/wind.py: gust_in_*",R+"metar/wind_variation.py",R+"metar/visibility.py",R+"metar/runway_range.py",R+"metar/temperatures.py",R+"metar/sea_state.py",R+"base/cloud.py: height_in_*"])
p("C85","split_sentence for any text, keywords and limit",
 "Whatever text without a bar, keywords of capitals and digits, limit and side of the blank: when the blank before the keyword is looked for (left, both) the parts joined by blanks are the text, and every part but the first begins with a keyword; otherwise the parts put together are the text. With a limit n there are at most n parts per keyword besides the first. With left and no limit the parts are the only ones that spell the text, begin with keywords and cannot be cut further. (Findings: with both, a keyword that follows itself directly is overlooked; without blanks a part need not begin with a keyword.)",
 "for every text, list of keywords, limit and value of space","all texts and keywords of any length",
 ["aeromet_py/utils/split.py: split_sentence","aeromet_py/utils/split.py: _add_space_left, _add_space_right, _add_space_both"])
p("C86","JSON text of the parts of a report",
 "The JSON text of every group, list of groups and quantity of a report made from Unicode text, asked for alone, is read back by an independent reader as the dictionary of that part; the JSON text of the report holds it, character for character, the groups and lists directly behind their keys. In general the text of whatever lies inside a value is part of the text of the value.",
 "for every constructed METAR and TAF, every group, list and number with to_json; for every value","all reports, all values",
 [R+"base/group.py: Group.to_json, GroupList.to_json",R+"base/numeric.py: Numeric.to_json",R+"base/wind.py: Wind.to_json",R+"base/report.py: Report.to_json"])
p("C87","A section is read completely whenever that is possible",
"A report has an empty unparsed_groups exactly when the groups of its body, and those of each of its trends or changes, fit the order of the groups: some of the patterns of the table, taken in order, match the groups one by one. So choosing the first applicable handler at every group misses no complete reading, and with truncate=True ParserError is raised exactly for the readable reports that do not fit. (The stronger claim that as few groups as possible are left over is false: in 'METAR COR SKBO 151200Z' station and time are left over, though all groups but COR fit.)",
"for every handler table and section text; for every METAR and TAF text, year, month and clock that gives a report",
"An example shows one report that is read completely; that no report with a complete reading is missed is a statement about all assignments of groups to handlers.",
["aeromet_py/reports/metar.py: Metar._parse_body","aeromet_py/reports/taf.py: Taf._parse_body",R+"base/__init__.py: parse_section"])
p("C88","A report cut short",
"What is decoded and left over of a front part of the groups of a section begins what is decoded and left over of the whole section. So when the body of one report is a front part of the body of another (as after a broken transmission), the two agree in every attribute up to the last group decoded, also in those that are missing, and the lists of the first begin the lists of the second.",
"for every handler table and lists of groups; for every pair of METAR or TAF texts the groups of whose bodies are a front part of each other, read with the same arguments and clock",
"A test compares one report with one shortened version; the claim compares every report with every report it begins.",
[R+"base/__init__.py: parse_section","aeromet_py/reports/metar.py: Metar._parse_body","aeromet_py/reports/taf.py: Taf._parse_body"])
p("C89","The arithmetic of reports is IEEE 754 and never near its limits",
"Rounding a number of the normal range of binary64 gives the nearest number of the format, ties to even, and nothing else. The product, quotient, sum and difference of two doubles of a magnitude from 1e-100 to 1e100 are those of IEEE 754, with the right sign of zero. Every number a METAR, a TAF, a trend or a change can show, in each of its units, is a number of the format that is zero or of a magnitude from 0.00001 to 100 million: no conversion overflows, underflows or gives infinity.",
"for all rational numbers in the normal range; for all pairs of doubles of moderate size; for every METAR and TAF text, station table, clock and arguments that give a report, and every number of it in every unit",
"There are 2^128 pairs of doubles and unboundedly many reports; a test sees a few quotients, not that no text leads to an overflow.",
["aeromet_py/utils/conversions.py: all constants and functions", R+"base/numeric.py: Numeric.converted", R+"base/distance.py", R+"base/pressure.py", R+"base/temperature.py"])
p("C90","Decimal texts of numbers",
"A number shown with N decimals has exactly N of them, no needless zero in front, a minus sign exactly when its sign bit is set, and is the nearest such decimal, ties to even. A number written by repr, str or json.dumps is the decimal of fewest digits that is read back as the same double, the closest of those, at most 17 digits, with an exponent exactly when it is at least 10^16 or below 1/10000. All numbers of a METAR or TAF that are not zero are written that way.",
"for all doubles and all numbers of decimals at least one; for all doubles of magnitude from 1e-100 to 1e100; for every number in every unit of every METAR and TAF that can be constructed",
"Minimality speaks about all decimals that read as the number; a test compares a few texts.",
[R+"base/numeric.py: Numeric.__str__", R+"metar/visibility.py: __str__", R+"base/cloud.py: __str__, from_metar heights", R+"metar/pressure.py: MetarPressure.__init__", R+"base/report.py: to_json", R+"base/numeric.py: to_json"])
p("C91","Matching a pattern",
"A pattern fits a text in certain ways: which alternative, whether an optional part is used, how many characters a repetition takes. re.match gives the way that makes the preferred choice (left alternative, part used, more characters) at the first place where ways differ, and None exactly when there is none; a named group is the text of its latest capture. re.search gives that way at the leftmost position of the text that has one, and re.sub replaces the successive leftmost ones, up to the limit, and nothing else.",
"for all patterns of the syntax used by the library and all texts; search and sub for all patterns without ^ that never match the empty text, which holds of all patterns the library passes to them",
"Which of several ways an engine takes shows only on texts with more than one, and the claim ranges over all patterns.",
["aeromet_py/utils/metar_regexp.py", "aeromet_py/utils/taf_regexp.py", "aeromet_py/utils/parser.py: re.search, re.sub", "aeromet_py/utils/split.py: split_sentence", R+"base/__init__.py: re.match"])
p("C92","Meaning of the pattern texts",
"Under the grammar of Python's re (characters, escapes, brackets, ^ and $, plain and named groups, ?, +, {m}, {m,}, {m,n}, sequence before |) a pattern text has one reading at most, and every pattern used in the other theorems is the reading of its text in the source.",
"for all texts of the grammar; for every pattern of metar_regexp.py, taf_regexp.py, parser.py, report.py, wind.py and strptime, and for every keyword without special characters",
"An ambiguity of the grammar or a wrong reading shows only on the texts concerned.",
["aeromet_py/utils/metar_regexp.py", "aeromet_py/utils/taf_regexp.py", "aeromet_py/utils/parser.py", "aeromet_py/utils/split.py", R+"base/report.py: _raw_code", R+"base/wind.py: Wind.__str__"])
p("C93","Reading numbers from text",
"On every text that the library passes to float or int, the number read is the one Python's documentation gives (white space, sign, digits of any script, underscores, point, exponent, inf and nan taken into account), and a text is refused exactly if it has no reading. The texts are: captured groups, as they are or with zeros or a minus sign added, the two parts of a fraction, and numbers the library has written itself, none of which needs an exponent.",
"for all texts of digits and the characters -/VRBXM, and all decimals with digits on both sides of the point; for every match of the patterns with any text; for all doubles written with decimals, and all speeds, ranges, wave heights and visibilities that groups can state",
"The set of texts that patterns let through is large (all scripts of digits), and that no exponent, underscore or inf reaches float is a claim about all of them.",
[R+"base/wind.py: Direction.__init__, Speed.__init__, Wind._mps2kt", R+"base/distance.py", R+"base/pressure.py", R+"base/temperature.py", R+"base/cloud.py: from_metar heights", R+"metar/visibility.py: _from_sea_miles", R+"metar/runway_range.py: _set_range", R+"metar/runway_state.py", R+"metar/sea_state.py", R+"metar/trend_indicator.py", R+"taf/valid.py", R+"taf/temperature.py", R+"taf/change_indicator.py"])
p("C94","Methods of strings and dictionaries",
"replace puts the new text in place of all occurrences of the old one, taken from the left and not overlapping, and changes nothing else. strip removes the white space at both ends and only that. split gives the only list of texts without the separator that, joined by it, is the text; join puts the separator between neighbours. Numbers are written with the fewest digits, and padded with zeros up to the width, the sign included. No dictionary literal has a key twice, so get finds the one entry of a key or None. Assigning to a key and update change an entry in its place or add it last, and leave the others.",
"for all texts, separators, lists of texts, integers and widths; for all dictionaries with distinct keys; for the 18 tables of texts and the table of directions of the source",
"Overlapping occurrences, white space of other scripts, empty words and numbers wider than the width are cases a test has to think of; the statements range over all texts.",
[R+"base/group.py: Group.__init__, GroupList.__str__", R+"base/report.py: Report.__init__, as_dict", R+"base/__init__.py: parse_section", "aeromet_py/utils/split.py: split_sentence", "aeromet_py/reports/taf.py: _handle_sections", R+"metar/visibility.py: MetarPrevailingVisibility.__init__", R+"base/time.py: Time.from_metar", R+"metar/weather.py", R+"base/cloud.py: SKY_COVER, CLOUD_TYPE", R+"metar/runway_state.py: tables"])
p("C95","Any year and month given to a report",
"Whatever integers are given as year and month, a METAR that is made has its time in exactly that month, or the year given was from 0 to 999 and the time is in another year, at least ten times as late (shown for November 999, read in 9991). Negative years, years after 9999, negative months, and months other than 1 to 12 of a four digit year raise ValueError whatever the text (the empty one apart, C04). For a TAF the same holds if the body has a time group; without one the year and month given are not used at all.",
"for all pairs of integers as year and month, all texts, all clocks that show an existing month of a four digit year",
"The two integers are printed, joined with the digits of the group and read back with strptime, whose pattern has optional second digits. Tests use sensible years, so the years that are misread without an error go unnoticed.",
[R+"base/time.py: Time.__init__", R+"base/time.py: Time.from_metar", "aeromet_py/reports/metar.py: _handle_time, __init__", "aeromet_py/reports/taf.py: _handle_time"])
p("C96","The unparsed groups can be struck out of a report",
"The decoded groups of a section, taken alone and in their order, are decoded by the same handlers to the same values, and nothing is left unparsed. So if the words of the body of a METAR or TAF that were reported as unparsed are struck out of the text, the new text gives a report equal to the first in every decoded value, trend and change, with the texts and the list of unparsed groups as the only differences; that list is then the one of the trends or changes. If the first text raises an exception the shorter text raises the same. The same holds of a trend of a METAR and of a change of a TAF, where the list becomes empty.",
"For every list of handlers, every section, every start state, all words (those that the preprocessing does not join with a neighbour), every number of unparsed words at any places, every set of trends, remark and changes, every database, clock and call option, and also for any two texts whose bodies have the said groups.",
"Any number of words may be struck out at any places, and the handlers are scanned with a cursor that each decoded group moves; tests can only remove words from a few chosen reports.",
[R+"base/__init__.py: parse_section", "aeromet_py/reports/metar.py: _parse_body", "aeromet_py/reports/taf.py: _parse_body", R+"metar/weather_trend.py: _parse", R+"taf/change_forecast.py: _parse"])
p("C97","Every group of a report is accounted for",
"Every group of a section is either decoded or left unparsed, never both, and no two by the same handler. The codes of the attributes of a METAR, read in the order type, station, time, modifier, wind, wind variation, visibility, minimum visibility, runway ranges, weather, clouds, temperatures, pressure, recent weather, wind shears, sea state, runway state, are exactly the decoded groups in the order of the text (joined words shown with blanks): no decoded group is missing, repeated or moved. The two exceptions are the type, which has a code also when the text has none, and a second pressure group, which replaces the first. So if all the words of a body are decoded and there is one pressure at most, the text of the body is the codes set side by side. The same holds of a TAF, where the temperature groups are distributed over two lists which keep their order, of the trends and of the changes, whose indicator has the words of the period in its code (an FM indicator has not).",
"for every text, database, clock and call option for which a report is made, every trend and change of it; for any table of handlers",
"Each of the up to 27 groups may be there or not, and the lists have several entries, so the combinations are beyond testing; a handler that stored a group in a wrong list or dropped one would only be seen by a test with that combination.",
[R+"base/__init__.py: parse_section", "aeromet_py/reports/metar.py: handlers", "aeromet_py/reports/taf.py: handlers", R+"base/group.py: GroupList.codes, Group.code"])
p("C98","Characters that no group has, and text behind a group",
"A word with a character other than a capital letter, a digit, +, -, / or _, a line feed (which no word of a report has) apart (a comma, a full stop, a small letter, a bracket) is matched by none of the patterns that are closed by $, so in a METAR body every such group is listed as unparsed. Four patterns have alternatives without $: the visibility and temperature of a TAF and both change indicators. These accept the word exactly when they accept the part before the character without needing the end of the text; the captured groups, and so visibility and temperature, are those of that part, while a change indicator then has no translation. In a TAF body such a group is unparsed unless it is taken as visibility or temperature in this way; in a trend or change unless it is the indicator. More generally every text may follow such a part, and every word that begins with four digits fits the visibility of a TAF: a misspelt wind group 09012KTS is read as a visibility of 901 m, and the visibility group after it is left unparsed.",
"for every text before and after the character, every foreign character, all 27 patterns of the handlers; for every report, trend and change that is made from any text; for all four digits and every continuation",
"The text around the character is unbounded and there are over a million characters; that a search of a pattern cannot succeed is a statement on all its ways.",
["aeromet_py/utils/metar_regexp.py", "aeromet_py/utils/taf_regexp.py", "aeromet_py/reports/taf.py: handlers", "aeromet_py/reports/metar.py: handlers"])
p("C99","Every attribute depends on its own groups only",
"Take any two METARs, made from any two texts, with different station tables, clocks, years, months and truncate options. If the groups decoded at the place of an attribute are the same in both, the attribute is the same: wind, wind variation, visibilities, runway ranges, weather, clouds, temperatures, pressure, recent weather, wind shears, sea state, runway state, type and modifier depend on nothing else in the text or the surroundings. The station needs the same tables besides, the time the same clock, year and month. Flight rules are the same when visibility and clouds are, should_be_cavok when the weather is so too. The same holds of TAFs (the temperatures need the time of the report, the valid period time and clock), of trends (whose indicator needs the time of the report) and of changes (whose indicator needs the valid period of the report; only the end of an FM period depends on the next change).",
"for all pairs of texts, databases, clocks and options for which reports are made, and all pairs of their trends and changes",
"It is a statement on all pairs of reports: a leak from one group into the attribute of another shows only for particular combinations of groups, and tests look at one report at a time.",
["aeromet_py/reports/metar.py: Metar, handlers", "aeromet_py/reports/taf.py: Taf, handlers", R+"metar/weather_trend.py: ChangePeriod", R+"taf/change_forecast.py: ChangeForecasted"])
p("C100","Reports with the same groups in another order",
"Take two METARs, with the same station tables, clock and options, whose bodies consist of the same groups in any two orders, and suppose both are decoded without a group left over and no word is read as one kind of group here and another there (a word that only one pattern accepts never is). Then type, station, time, modifier, wind, wind variation, both visibilities, temperatures, recent weather, sea state, runway state and, if only one is given, pressure are the same, and runway ranges, weather, clouds and wind shears are the same up to their order. Moreover the kinds of the groups come in the same order in both: to exchange groups of different kinds always leaves a group over. The same is true of TAFs, and of trends and changes without the condition on the words, since none has two readings there; the times of two such trends also agree, if the reports are of the same time and the trend does not have two periods of one kind (`FM`, `TL`, `AT`). It is not true of the flight rules: they follow the first broken layer as it is written, not the lowest one.",
"for all pairs of texts, all databases, clocks and options for which reports are made, and all pairs of their trends and changes",
"All orders of all lists of groups are covered; a test checks a few orders of one report.",
["aeromet_py/reports/metar.py: Metar, handlers", "aeromet_py/reports/taf.py: Taf, handlers", R+"metar/weather_trend.py: ChangePeriod", R+"taf/change_forecast.py: ChangeForecasted", R+"base/flight_rules.py: FlightRulesMixin.flight_rules"])
p("C101","Lengths of groups and the work of matching",
"For each of the 23 patterns that end with $ in all their alternatives, the lengths of the words they accept are exactly those of a table (station 4, time 7, wind 7 to 15, runway range 6 to 19, pressure 4, 5, 7, 8 or 10, and so on); the other four (TAF visibility and temperature, the change indicators) accept words of a least length (1, 10, 5, 5) and of every greater length. Hence a word of more than 19 characters in the body of a METAR is always reported as unparsed, and one of more than 15 characters is decoded in a TAF as visibility or temperature only, in trends and changes as the indicator only. Matching never takes long: whatever the word and however long, an exhaustive search of any of the patterns has at most 4320 ways and 12961 tests, so no text leads to catastrophic backtracking.",
"for all patterns used by the parsers, all words of all lengths, and all reports, trends and changes",
"The claim is about words of every length; and absence of bad backtracking cannot be shown by trying words.",
["aeromet_py/utils/metar_regexp.py", "aeromet_py/utils/taf_regexp.py", "aeromet_py/reports/metar.py: Metar, handlers", "aeromet_py/reports/taf.py: Taf, handlers"])
p("C102","The time line of a TAF",
"Every change of a TAF starts on the day its validity starts, or later. An FM change that is followed by an FM or BECMG change (PROB and TEMPO changes may be between them) ends exactly one hour before that change starts; so it ends before it starts exactly if the other starts less than an hour later. If every change is of the kind its text begins with (a misspelt PROB20 is of none) and the FM and BECMG changes are written in the order of their starts, then at no instant two FM changes are in force, and within the hour before every FM or BECMG change no FM change is. Without that order two can be in force together; and that a change starts before the report ends is false: FM091500 in a report for the 10th and 11th starts in the next month.",
"for all texts, databases, clocks and options for which a TAF is made, all pairs of its changes and all instants",
"It is about all pairs of changes at all instants, for every combination of kinds of changes; tests compare the times of single changes.",
[R+"taf/change_forecast.py: TafChangesForecasted.add", R+"taf/change_indicator.py: TafChangeIndicator", "aeromet_py/reports/taf.py: Taf._parse_changes_forecasted"])
p("C103","Comparing reports by any unit",
"If of two groups of one kind one states less than the other, then the decoded objects compare in the same way in every unit they offer, strictly, whatever units the groups are written in: wind speeds and gusts (KT and MPS), visibilities (metres, kilometres, miles with fractions), heights of clouds, ends of runway visual ranges (metres and feet), temperatures and dew points, temperatures of a TAF, temperature and waves of the sea, and pressures that differ by a tenth of a hectopascal at least. In particular neither the constants of the library nor rounding ever make two different statements equal or exchange them. For two METARs this is said of their attributes. For closer pressures in different units it is false: 29.53 inches are more than 1000 hPa, but decoded as the same.",
"for all pairs of groups of each kind, all units, and all pairs of METARs, databases, clocks and options",
"All pairs of groups in all pairs of units are far too many to try, and rounding and approximate constants could exchange any of them.",
["aeromet_py/utils/conversions.py", R+"base/numeric.py: Numeric.converted", R+"base/distance.py: Distance", R+"base/wind.py: Speed", R+"base/temperature.py: Temperature", R+"base/pressure.py: Pressure", "aeromet_py/reports/metar.py: Metar, handlers"])
p("C104","Flight rules and CAVOK from the numbers written",
"The rounding of the conversions never carries a visibility over one of the bounds 800, 1600, 5000, 8000, 10000 and 20000 metres: the decoded number is below a bound exactly when the number written in the report, with miles of 1852 m and fractions taken exactly, is below it. So flight_rules of a METAR, a trend, a TAF and a TAF change is the category of two numbers of the text, the hundreds of feet of the first BKN, OVC or VV group (bounds 2, 5, 10, 30) and the metres stated by the visibility group; and should_be_cavok is true exactly when no weather group is decoded, there are layers, all harmless, those that cover most of the sky have a height, and 10000 metres or more are written. With statute miles of 1609 m both claims are false: 3SM is MVFR although it is below 5000 m, and with 6SM, which is below 10000 m, should_be_cavok is true.",
"for all visibility groups, all bounds, all METARs, trends, TAFs and TAF changes, all databases, clocks and options",
"Near every bound there are fractions of miles whose product is rounded; a test of some of them says nothing about the others, and the conditions interact with all lists of layers and weather.",
[R+"base/flight_rules.py: FlightRulesMixin", R+"metar/should_be_cavok.py: ShouldBeCavokMixin", R+"metar/visibility.py", R+"base/cloud.py"])
p("C105","One text read in different months",
"The year and the month only move a report. If one text is read as a METAR with any two years, months, clocks and station tables and both readings succeed, the times of the reports have the same day, hour and minute; type, modifier, wind, visibility, runway ranges, weather, clouds, temperatures, pressure, recent weather, windshear, sea and runway state, the groups left unparsed and the forecasts of the trends are equal; and all times of the trends, over the ends of days, months and years, lie equally many minutes from the time of the report. For a TAF the same holds for the stated valid period and the times of the temperatures; without a valid group the validity begins at the same day and hour and has the same length. The changes have the same texts and forecasts; if the validities begin at the same day and time, the periods stated by valid groups lie equally far from that beginning, and so does the beginning of an FM change whose day is left in both months. This last condition is needed: FM010600 after a validity from the 30th begins one day later in June, two days later in May.",
"for all texts, all pairs of databases, sane clocks, years 1000-9999 and months 1-12, all trends, temperatures and changes",
"A test reads a text with one month, or two; the claim compares every text under every pair of months, with months of different lengths and ends of years among them.",
["aeromet_py/reports/metar.py: Metar", R+"metar/trend_indicator.py", R+"base/time.py", "aeromet_py/reports/taf.py: Taf", R+"taf/valid.py", R+"taf/temperature.py", R+"taf/change_indicator.py"])
p("C106","A report can be made again from its JSON text",
"The JSON text of a METAR keeps what the report was made from. Read as JSON, it has the code of the report under \"code\" and a text beginning YYYY-MM- under \"time\", \"datetime\"; giving that code, that year and that month to the constructor, under any clock, makes the very same report again, whatever year, month, clock and truncation it was first made with. The same holds for a TAF that has a time group and a valid group. So two reports with one JSON text are equal in every attribute, also in those the text does not show. It is needed that the code is settled (not empty, trimmed, no run of blanks): an end-of-message sign between two blanks leaves two blanks, and the code read again is another one. A TAF without a valid group is not kept: its default period follows the clock, its JSON text names only the month of its time.",
"for all databases, texts and station tables of Unicode scalar values, sane clocks, years 1000-9999 and months 1-12, and all clocks of the later reading",
"A test makes some reports again from stored texts; the claim is that no report is made again differently, in any later month, and that the JSON text determines every attribute.",
["aeromet_py/reports/metar.py: Metar", "aeromet_py/reports/taf.py: Taf", R+"base/report.py", R+"base/time.py"])
p("C107","A group means the same in every part of a report",
"Wind, visibility, weather and clouds are decoded alike in a METAR, in the trends of a METAR, in a TAF and in the changes of a TAF, although four classes and two sets of patterns are at work: if two such parts, of any two reports with any clocks and station tables, have the same groups decoded as wind, their winds are equal, and likewise their visibilities, lists of weather and lists of clouds; with equal groups for visibility and clouds they have the same flight rules, and with equal weather groups the same answer to should_be_cavok. Type, station, modifier and time of a METAR and a TAF agree in the same way. What differs is which groups are taken: TAF and change take as wind exactly the wind groups of a METAR that have no solidus; the body of a TAF takes every visibility group of a METAR except those beginning with four solidi, a change takes those too, and the body of a TAF takes groups like 3000X that a change leaves.",
"for all pairs of METARs, trends, TAFs and changes of reports with any texts, databases, clocks and options; for all groups",
"Tests decode a group in the part they are about; the claim compares two decoders, with different patterns, on every group both of them take.",
["aeromet_py/reports/metar.py: Metar", R+"metar/weather_trend.py: ChangePeriod", "aeromet_py/reports/taf.py: Taf", R+"taf/change_forecast.py: ChangeForecasted", "aeromet_py/utils/metar_regexp.py", "aeromet_py/utils/taf_regexp.py"])
p("C108","METAR and TAF are told apart by their groups",
"The constructors do not check which kind of report a text is, but the groups do: a group that only a TAF has (valid period, CNL, TX or TN temperature) is never decoded in the body or a trend of a METAR and is listed among its unparsed groups; a group that only a METAR has (variation of the wind, runway visual range, wind shear, state of sea or runway, pressure with a letter, temperatures not beginning with M) is never decoded in the body or a change of a TAF and is listed. So a strict METAR has no group of the first sort and a strict TAF none of the second. When one text without trends, changes and remarks is read strictly by both constructors and has a station and a visibility, both reports say the same: type if written, station, code of the time, wind, visibility, weather, clouds and flight rules are equal, the times too when the same year and month are in use, NIL is the modifier of the one and the missing group of the other, and no other attribute of either is set. Without station or visibility this is false: in COR TSRA the second word is weather of a METAR and the station of a TAF.",
"for all texts, databases, clocks and options; for all groups; for all lists of words",
"Tests give METARs to Metar and TAFs to Taf; the claim is about every text that both accept, and about every group of the one kind wherever it is put in the other.",
["aeromet_py/reports/metar.py: Metar._parse_body", "aeromet_py/reports/taf.py: Taf._parse_body", R+"metar/weather_trend.py: ChangePeriod", R+"taf/change_forecast.py: ChangeForecasted", "aeromet_py/utils/metar_regexp.py", "aeromet_py/utils/taf_regexp.py"])
p("C109","A group replaced by another of its kind changes its own attribute only",
"In any section, let one group be replaced by another that the same patterns accept. Then either both are decoded, at the same place, and the groups that are not decoded are the same, or neither is, and the decoded groups are the same. So two METARs (or TAFs) that differ in one such group of the body agree on every attribute but that of the kind of the group; where this attribute is a list, one member of it is changed and the others stay where they are. Exceptions are only those of derivation: the valid period and the temperatures of a TAF are computed from its time, the trends of a METAR from its time, the changes of a TAF from its valid period; with the same text they are the same otherwise, and so is the list of unparsed groups. Any two words of the kinds type, time, wind, variation, range, temperatures, wind shear, sea and runway of a METAR are accepted by the same patterns, and any two of the kinds amendment, time, NIL, valid, CNL and temperature of a TAF; words of other kinds are if they are not shared with another kind. Of visibilities this is false: after 3000, 9999 is read as the minimum visibility and CAVOK is not read.",
"for all lists of groups and all pairs of words; for all reports that are read, with any database, clock and options",
"Tests compare a report with expected values; that nothing else moves when one group is exchanged is a statement about pairs of reports, for every group in every place.",
[R+"base/__init__.py: parse_section", "aeromet_py/reports/metar.py: Metar._parse_body", "aeromet_py/reports/taf.py: Taf._parse_body", "aeromet_py/utils/metar_regexp.py", "aeromet_py/utils/taf_regexp.py"])
p("C110","Groups can be left out of a report",
"In any section, let the groups behind the first ones all be decoded, each as the first kind, of those behind the kinds of the first groups, that accepts it. Then any of them can be left out: the others are decoded as the same kinds in the same order, and the groups that are not decoded are the same. So a METAR (or TAF) from whose body such groups are left out has each attribute that is read from one group as it was, or the attribute has its default value and its group was decoded before and is not any more; each list of ranges, weathers, clouds, wind shears or temperatures is a sublist of the former; the pressure is the same if the last pressure group is. The time is the same or its group is left out; the valid period and the temperatures of a TAF are compared for the same time. Trends, changes and the list of unparsed groups are the same if the text of the trends (changes) is, and the time (valid period). The condition holds in a METAR, behind the station, if no group was read as the minimum visibility and no pressure is four digits or solidi only, and in a TAF, behind the station, if no time, valid period or wind was read as visibility and the pattern of the visibility accepts none of the groups read as weather. So a METAR read completely that meets this, written again without some groups behind its time, is read completely again, with the same time and trends. From a trend of a METAR or a change of a TAF that is read completely any groups can be left out, without condition: it is read completely again, and its conditions are the same or gone in the same way. In the body the condition is needed: in 3000 1500NE the second is not the prevailing visibility, but it is when 3000 is left out.",
"for all lists of groups and all sublists of them; for all reports that are read, with any database, clock and options",
"Tests read given reports; there are exponentially many ways to leave groups out of one report, and the statement compares each with the whole report.",
[R+"base/__init__.py: parse_section", "aeromet_py/reports/metar.py: Metar._parse_body", "aeromet_py/reports/taf.py: Taf._parse_body", R+"metar/weather_trend.py: ChangePeriod", R+"taf/change_forecast.py: ChangeForecasted", "aeromet_py/utils/metar_regexp.py", "aeromet_py/utils/taf_regexp.py"])
p("C111","CAVOK set by hand",
"Let any objects be assigned to prevailing_visibility.cavok of a METAR or TAF. An assignment raises TypeError exactly when the object is not a bool, and then changes nothing. After all of them the value is the last bool assigned, and the report is the former one if there was none. In the dictionary just the entry cavok of prevailing_visibility, which is there, is another, with the order of the entries the same. The text of the report, the flight rules and the answer of should_be_cavok do not notice the assignments, so that the text of a report keeps its former line about the visibility; assigning the former value restores the report. When CAVOK is taken back by hand where it was reported (METAR, trend, TAF or change), the visibility is 10.0 km in words; when it is given by hand, the words are those of CAVOK whatever the visibility.",
"for all sequences of assignments; for all reports that are read, with any database, clock and options",
"A test assigns some values to some object; the statement is about every sequence of assignments and about all other observations of every report.",
[R+"metar/visibility.py: MetarPrevailingVisibility.cavok", R+"metar/visibility.py: MetarPrevailingVisibility.__str__", "aeromet_py/reports/metar.py: Metar.as_dict", "aeromet_py/reports/taf.py: Taf.as_dict"])
p("C112","Equal values come from groups that state the same",
"If the values decoded from two groups are equal in one of the units in which the library gives them, the two groups state the same: the same direction, speed or gust (in the same unit by the same number; the direction together with the variable flag gives back the direction as written), the same visibility, visual range, temperature, dew point, maximum or minimum temperature, sea temperature or wave height, or none in both. The two directions of a wind variation give back the group. Equal pressures of groups in the same unit have the same number; in different units they are less than a tenth of a hectopascal apart, and may be different ones (1000 hPa and 29.53 inches). Equal cover, eighths, type and height of clouds mean the same height and type and the same cover, up to SKC for CLR and NSC for NCD. The five descriptions of a weather group are equal exactly if intensity, descriptor and phenomenon are the same; those of a recent weather group give back the group. It holds between two METARs, and between a change of a TAF and a METAR.",
"for all pairs of groups of a kind; for all pairs of METARs, and for all changes of TAFs and METARs, that are read, with any databases, clocks and options",
"The statement is about all pairs of texts of a group; tests compare the values of single groups with expected ones and never the values of two texts.",
[R+"metar/wind.py: MetarWind", R+"metar/wind_variation.py: MetarWindVariation", R+"metar/visibility.py: MetarPrevailingVisibility", R+"metar/cloud.py: Cloud", R+"metar/weather.py: MetarWeather", R+"metar/pressure.py: MetarPressure", R+"metar/temperatures.py: MetarTemperatures"])
p("C113","What constructing a METAR prints",
"Constructing a METAR writes to standard output, trend by trend, one line for every FM, TL and AT group that is decoded, and nothing else: the instant of the last AT group of the trend up to there, counted from the time of the report, or None when there is none. At most two lines are printed for each trend, and none when no period group is decoded. The lines do not depend on truncate: a report that is rejected for its unparsed groups has printed the same ones before. For any text, also when an exception is raised, every line is None or an instant of the calendar. The report or the exception is the same as that of the model without output, so that the other properties hold of the constructor with its output. Running the package prints one line, the sections of its METAR with the trend that stands behind the remark, and raises nothing, in any month of a four digit year.",
"for all texts, databases, clocks and options (result, truncate, any); for all METARs that are read (lines, count)",
"The tests of the library do not look at standard output, where the line left over from debugging writes; and the statement is about all texts with any number of period groups.",
[R+"metar/weather_trend.py: ChangePeriod._handle_time_period", R+"metar/trend_indicator.py: MetarTrendIndicator.add_period", "aeromet_py/__main__.py"])
p("C114","The tables only describe the station",
"With other tables of stations and countries the same text raises the same exceptions, for METARs and TAFs. When it is read, the two reports have every attribute in common but the row found for the station and the text, and the code of the station is the same. The texts are equal, or they are the same before and after the description of the station, once by each table. Their dictionaries have the same keys in the same order and the same values but under station. Tables with the same first row for every ICAO code and the same name for every country give the same reports: the order of the other rows and later rows of a code play no role.",
"for all pairs of tables, and all texts, clocks and options",
"It relates two runs with different tables. The tests run with the one table of the library, and no test changes it.",
[R+"base/report.py: Report._handle_station", "aeromet_py/reports/metar.py: Metar.__init__", "aeromet_py/reports/taf.py: Taf.__init__", R+"base/station.py: Station._get_data"])
p("C115","The characters of the texts of reports",
"Every character of the text of a METAR is ASCII, the degree sign, a decimal digit (of any script) of the text of the report, or a character of the tables of stations and countries. The text of a TAF has no character of the report outside ASCII at all; that of a change period of a METAR is ASCII and degree signs, and that of a change of a TAF is ASCII. With the tables of the library the other characters can only be the letters \u00c5, \u00e7, \u00e9 and \u00f4 of the names of countries.",
"for every text on which a constructor succeeds, every station table (and that of the library), clock and arguments",
"The patterns accept digits of all scripts and the text may hold any character behind RMK or in groups that are not understood; no test has a character outside ASCII in a report.",
[R+"base/string_attribute.py: StringAttributeMixin", "aeromet_py/reports/metar.py: Metar", "aeromet_py/reports/taf.py: Taf", R+"metar/weather_trend.py: ChangePeriod", R+"taf/change_forecast.py: ChangeForecasted", "aeromet_py/database/stations.py: STATIONS", "aeromet_py/database/countries.py: COUNTRIES"])
open('/verif/properties.jsonl','w').write("".join(json.dumps(x)+"\n" for x in P))
