# Formal model of aeromet-py: design

The code under study is `/repo/aeromet_py` (Python). It was read as text, never built or run.
The model is in Lean 4 under `lean/Verif/`, core library only (no Mathlib import).

## Layers of the model

| Layer | Module(s) | What it models |
|---|---|---|
| Python strings | `Verif/Py/Str.lean` | `str` as a list of code points (`List Nat`); `split`, `strip`, `lstrip`, `replace`, `startswith`, `join`, `\d`/`\s` classes, `int()` |
| Regular expressions | `Verif/Py/Regex.lean` | the subset of Python's `re` used: AST, reader for the pattern text, ordered backtracking semantics (list of successes, first one wins), `match`, `search`, `sub` with `count` |
| Floats | `Verif/Py/Float.lean` | IEEE binary64 as a rational plus round-to-nearest-even to 53 bits and the sign of zero; `float()`, `*`, `/`, `+`, comparisons, `{:.Nf}` |
| Dates | `Verif/Py/DateTime.lean` | proleptic Gregorian `datetime` (minute resolution), `timedelta` addition through ordinals, `strptime("%Y%m%d%H%M")` |
| Exceptions | `Verif/Py/Exc.lean` | Python exceptions as values of `Except` |
| Library | `Verif/Model/*.lean` | function by function model of `aeromet_py`; every definition cites file and lines |
| Specification | `Verif/Spec/*.lean` | small definitions written without reference to the model's helpers |
| Proofs | `Verif/Lemmas/*.lean` | helper lemmas |
| Properties | `Verif/Props/*.lean` | the theorems named in MANIFEST.json, with a concrete case beside each |
| Conformance | `Verif/Tests/*.lean` | the project's own tests, run on the model by the kernel |

Regular expressions are the heart of the library. The patterns are written in the model as the
literal Python pattern text and read by an elaborator (`re! "..."`), so they can be compared
with `/repo` by eye. Theorems about *all* strings of a given shape are obtained by reflection:
a token shape is a list of character classes; a checker runs the pattern on the shape and
(soundness theorem) its answer is valid for every string of the shape. This is a proof by
computation over classes, not a bounded check of sample strings. Conversely `everyShape` gives
all shapes a pattern accepts, so "every accepted group is ..." is proved by cases.

Reports are handled by a refinement: `parse_section` is proved equal to an ordered assignment of
groups to handlers (`Spec/Parse.lean`: `FirstApplicable`, `Runs`), from which each attribute of a
constructed report is related to the group it was decoded from (`FromGroup`, `FromGroups`,
`FromLast`; `Metar.new_reading`, `Taf.new_reading`). Theorems about one group and theorems about
constructed reports meet there.

## Trusted base

* Lean's kernel, and the axioms `propext`, `Classical.choice`, `Quot.sound`. `AXIOMS.md` lists the
  axioms of every theorem of the manifest (regenerated by `tools/axioms.py`).
* That the model says what the code says. The simplifications are listed below. Three checks
  support this; they are evidence, not proofs, and no theorem rests on them:
  * the tests of the project (138 tests, 1587 assertions) are translated mechanically by
    `tools/tests2lean.py` into `Verif/Tests/` and hold of the model, by `decide +kernel`;
  * `tools/check_regexps.py` compares every pattern of the model with `/repo`, and
    `tools/regex_diff.py` compares the model of `re` with Python's own on 124,796 pairs of pattern
    and text (no difference);
  * `tools/repr_diff.py` compares the model of `repr(float)` with Python's on 16,712 numbers (no
    difference).
* That the specification (`Verif/Spec/`, and the statements in `Verif/Props/`) says what the English
  of `properties.jsonl` says. Mutation testing (`seeded/LOG.jsonl`) supports this: the model is
  edited as a realistic bug would, and the theorems whose claim breaks must fail.
* Semantics of Python taken from its documentation and CPython 3.11 sources: `re` (backtracking
  order), `str` methods, `float` parsing and formatting (correctly rounded), `strptime`,
  `datetime`, `json.dumps` with its default arguments.

### Modelled

| Code | Model |
|---|---|
| `utils/parser.py`, `utils/split.py` | `Model/Utils.lean` |
| `utils/metar_regexp.py`, `utils/taf_regexp.py` | `Model/Regexps.lean` |
| `utils/conversions.py`, `models/base/numeric.py` and the quantities | `Model/Conversions.lean`, `Model/Base.lean` |
| `models/base/*` (groups, lists, directions, wind, visibility, cloud, time, type, modifier, station, report) | `Model/Group.lean`, `Model/Base.lean` |
| `models/metar/*` | `Model/MetarGroups.lean`, `Model/Forecast.lean` |
| `models/taf/*` | `Model/TafGroups.lean`, `Model/Forecast.lean` |
| `reports/metar.py`, `reports/taf.py` | `Model/Metar.lean`, `Model/Taf.lean` |
| `database/stations.py`, `database/countries.py` | `Model/Stations/*`, written by `tools/stations2lean.py` |
| the uses that change an object (iteration, `should_be_cavok`, `as_dict`, `str` of changes) | `Model/Uses.lean` |
| the `cavok` setter (visibility.py 189-200) and its effect on a report | `Model/Setters.lean` |
| `to_json` of reports, `json.dumps` | `Model/Json.lean` |
| `to_json` of groups, lists and quantities | `Model/JsonParts.lean` |
| `repr(float)`, `f"{x}"` | `Py/Repr.lean` |
| standard output of `Metar.__init__` | `Model/Output.lean` |
| `aeromet_py/__main__.py` | `Model/Main.lean` |

### Not modelled, or simplified
* The stations and countries tables are parameters of the constructors in the model, so that the
  other properties hold of any tables. C72 is about the tables of the library. The conformance tests
  use the rows they need.
* `datetime.utcnow()` is a parameter: a constructor reads the clock up to three times, and each
  reading may differ. Seconds are absent because they are always 0.
* `print` in `ChangePeriod._handle_time_period` is left out of `Model/Forecast` and of the constructor
  `Metar.new`; `Model/Output` models the constructor with it, and C113 proves that the two agree.
* Type errors caused by passing arguments of the wrong Python type to the public constructors.
* `c.cover is "indefinite ceiling"` (object identity of two equal strings of different modules)
  is a Boolean parameter of the model, because its value is implementation defined.
* Binary64 exponent range (overflow, subnormals): the model rounds to 53 bits with any exponent. C89
  proves that this is IEEE 754 rounding in the normal range, and that every number of a report, in
  every unit, is zero or of a magnitude from 0.00001 to 100 million.
* `float` and `int` of the model read a part of what Python reads (no exponents, underscores, `inf`,
  `nan`, white space around). C93 proves that the library passes no other texts to them,
  and that `float("None")` (sea_state.py 51-55) fails.

## Plan per property

| Id | Model part | Specification | Proof |
|---|---|---|---|
| C01-C03 | `Report.__init__` normalisation | words and white space | induction over the text |
| C04, C24, C52 | all handlers, exceptions as values | list of exceptions; exact list of raising visibility groups | shape enumeration of each pattern, case analysis, invariant over the parse loop; witnesses reach every exception |
| C05, C06 | `parse_section` | `Spec/Parse` | induction; refinement to an ordered dispatch relation |
| C59 | the constructors, `parse_section` | `Spec/Insert` (`Inserted`, `Loose`) | relating two runs of the parser, with and without the word; the texts are only stored |
| C07, C08 | `Metar`, `Taf` constructors | two runs compared | unfolding, relational |
| C09-C12, C58 | `split_sentence`, `_handle_sections` | `Spec/Sections` | induction over the text, substring lemmas |
| C13, C14 | strptime, datetime | `Spec/Calendar` | shape reflection for the regex, arithmetic |
| C15 | constructors with clock parameter | two clocks compared | relational |
| C16-C23, C25-C27, C33-C38 | group constructors | `Spec/Grammar`: rendering of what a group states | shape reflection; finite float tables by kernel computation over the whole table |
| C28-C32 | ceiling, flight rules, should_be_cavok | `Spec/CloudReport` | decision logic, induction over lists |
| C39-C41 | GroupList | list operations | invariant by induction over operations |
| C42-C45, C47 | date arithmetic | `Spec/Periods`: instants by minutes | ordinal arithmetic, omega |
| C46 | TafChangesForecasted.add | `Spec/Changes` | induction over the list |
| C48, C53, C57 | report state | dispatch relation | invariant over the parse loop |
| C49 | Numeric.converted | rational ratios | rounding error lemma |
| C50, C51, C67 | whole constructors | `Spec/RoundTrip`, `TafRecord`, `TrendRecord`: rendering of a record and what it states | for each ordered pair of group kinds the patterns are shown disjoint (or the conditions of the record exclude the pair); the run of the parser is then forced |
| C54 | Station | first row of a table | induction over the table |
| C55 | sanitizers | rules of replacement without regular expressions | substring lemmas, uniqueness of the result |
| C56, C68, C69 | `StringAttributeMixin`, `__str__` | `Spec/Lines`, `Spec/RecordText` | invariant over the run: the buffer is the lines of the groups consumed |
| C60 | `as_dict` | `Spec/Dict`: flat table of paths | computation of the leaves |
| C61-C66 | `__str__` of each group | `Spec/GroupText`: text from the numerals of the group | correctly rounded decimals of the decoded doubles |
| C70 | `json.dumps`, `repr(float)` | `Spec/Json`: reader of RFC 8259 | the shortest representation lies within half a unit of the last place, so reading rounds back; induction over values; `Made` for reports |
| C71 | `as_dict` | `Made` | closure of the decoded texts under the operations of the parser |
| C72 | the tables of 9390 stations and 249 countries | `Spec/Stations`: what a row looks like | the kernel checks every row of the table with checkers proved sound; uniqueness by inserting all codes into a trie; then C50, C51, C54 |
| C73 | every handler, the trends and changes, `GroupList.add`, `TafChangesForecasted.add` | `Spec/Refusal`, `Spec/TafRefusal`: what each group of the text is refused with, the first one decides | exact run of the parse loop; every other handler is total |
| C74 | `Model/Uses`: what each use does to the object | `Spec/Uses`: the report with its iterators rewound | induction over the sequence of uses; generalised C60 |
| C75 | all decoders | `Spec/Bounds`: a range for each number | the reading theorems (C16, C20, C21, C25, C27, C33, C34, C36, C47) bound the numerals; rounding is monotone |
| C76 | `Py/Repr` (`float.__repr__`), `Speed`, `Distance` | the value itself | the shortest decimal of a number that is neither large nor small has no exponent and is read like a JSON number (C70) |
| C77 | constructors, `ChangePeriod`, `ChangeForecasted` | `Spec/Local`: equality but for the named attributes | the handlers commute with replacing the code and the sections; a trend is a function of its text and the time |
| C78 | constructors, `_handle_sections` | `Spec/Local`, `Spec/Sections` | the body is a front part of the code, hence tidy (C03) and whole (C10, C11); C77 |
| C79 | the patterns and handler tables | `Spec/Ambiguity` | every match follows a path of its pattern; the paths of two patterns are compared, in the kernel, and the shapes left over are read as the listed words |
| C80 | `kelvin_to_celsius`, `fahrenheit_to_celsius`, `rankine_to_celsius` | `Within`, exact formulas | three roundings in a row bounded one by one; with C49 for there and back |
| C81 | `GroupList.__getitem__`, `__str__` of lists | `Spec/Lists` (`AtIndex`, `Joined`, `ListShown`) | cases on the index; C62 to C66 give the text of each group; the changes (`Spec/ChangesText`) by C46: the indicator as constructed or with its end moved |
| C82 | `as_dict` of the indicators | `Spec/Indicators` | flattening; an instant of a change always has a code, by induction over the period groups |
| C83 | `Valid.duration` | `Spec/Periods`, `Spec/Calendar` | the days taken for the stated ones (C43, C44) |
| C84 | `Model/Accessors`: the unit properties of all groups | `Spec/Quantities`: physical quantities of the groups | the reading theorems give the value kept, C49 the conversion; the relative errors add up |
| C85 | `split_sentence` | `Spec/Split`, `Spec/Sections` | substitution of a literal as a relation between texts; what the relation keeps; uniqueness of the pieces |
| C86 | `Model/JsonParts`: `to_json` of groups, lists, quantities | `Spec/JsonParts` (`Inside`), the reader of C70 | induction over the value; the entries of the dictionaries, whose keys are distinct |
| C87 | `parse_section`, constructors | `Spec/Complete` (`Fits`, the orders of the groups) | exchange argument: the first applicable handler is never later than the one of another choice, so more patterns are left |
| C88 | `parse_section`, constructors | `Spec/Complete` (`MetarCut`, `TafCut`) | the loop reads from left to right; positions increase, so nothing settled is touched again |
| C89 | `F64`, every accessor of a quantity | `Spec/Binary64` (`Rounded`, `Result`, `Ordinary`) | uniqueness of the nearest even number; sums are multiples of 2^-400; C75 from above, smallest readings from below |
| C90 | `fmtF`, `floatRepr` | `Spec/Printing` (`FixedText`, `ShortestDecimal`, `ReprText`) | monotonicity of rounding: the numbers read as x form an interval, so the highest exponent gives the fewest digits |
| C91 | `RE.m`, `match`, `search`, `sub`, `group` | `Spec/Engine` (`Way`, `Preferred`, `FirstWay`, `Substituted`) | the engine instrumented with its choices lists exactly the ways, sorted by preference; ways without `^` are invariant under dropping a prefix, so searching the suffixes is searching the text |
| C92 | `re!` patterns of `Model/Regexps`, `Utils`, `Metar`, `Base`, `Py/DateTime` | `Spec/PatternText` (`Syn` with `text`, `means`, `ok`; `Denotes`) | a reader proved complete for the grammar (so texts are unambiguous); the finite table of pattern texts, copied from `/repo` a second time, is evaluated in the kernel. The elaborator `re!` is no longer trusted |
| C93 | `floatOf`, `intOf`, `mps2kt`, `fmtF`, `floatRepr` | `Spec/Numerals` (`FloatText`, `IntText`: the grammar of the Python documentation; `PlainFloat`, `PlainInt`) | on plain texts the grammar has at most the reading of the model; what the groups capture is plain by shape enumeration over the table of the groups concerned |
| C94 | `replace`, `strip`, `splitC`, `join`, `natStr`, `padNat`, `padInt`, `dget`, `dset`, `dupdate` | `Spec/Methods` (`ReplacedAll`, `Stripped`, `DecimalText`, `Put`), `Joined` | each description determines the result, and the result meets it; the keys of the literal tables by kernel computation |
| C95 | `Time.new`, `Time.fromMetar`, `strptime`, `Metar.new`, `Taf.new` | `Asked`, `Outside` (`Props/YearMonth`) | the finite list of ways through the pattern of `strptime` gives lengths and places of the fields; the lengths of the printed numbers do the rest |
| C96 | `parseSection`, `Metar.new`, `Taf.new`, `ChangePeriod.new`, `ChangeForecasted.new` | `Decodes`, `Leaves` (`Spec/Parse`) | the assignment of handlers to the kept groups is the same (induction on the groups with the cursor), so the run of the handlers is the same |
| C97 | `Metar.new`, `Taf.new`, `ChangePeriod`, `ChangeForecasted`, all codes | `Spec/Account` (`metarStated`, `tafStated`, `forecastStated`, `sideBySide`) | positions of handlers increase strictly, so the decoded groups are cut at the positions of the attributes; C53 gives each piece |
| C98 | the 27 patterns, `prevailing`, `TafTemperature.new`, `changeIndicator`, `Metar.new`, `Taf.new` | `Spec/Foreign` (`Foreign`, `inside`, `unended`, `Ended`), `Spec/Engine` | induction over the ways (C91): no way passes a foreign character, and one that does not use `$` is not disturbed by what follows; per pattern a decidable check |
| C99 | `Metar.new`, `Taf.new`, `ChangePeriod`, `ChangeForecasted`, `flightRules`, `shouldBeCavok` | `Spec/Own` (`SameAt`, `MetarOwn`, `TafOwn`, `ForecastOwn`) | each attribute is a function of the groups taken at its places (C05, C06); for indicators a projection of the run |
| C100 | `Metar.new`, `Taf.new`, `ChangePeriod`, `ChangeForecasted`, `flightRules` | `Spec/Rearranged` (`SameKinds`, `kinds`, `MetarRearranged`, …) | decoded groups with their kinds are permutations; one place each ⇒ equal, hence C99; sorted by rank ⇒ equal kinds; negation with a witness for the flight rules |
| C101 | the 27 patterns, `RE.m`, `Metar.new`, `Taf.new` | `Spec/Length` (`groupLengths`, `leastLengths`, `explore`), `Spec/Engine` | induction over the ways: lengths of a way are in a computed finite set, compared with the table, and every length has a witness; the number of ways and tests is bounded by structural recursion on the pattern |
| C102 | `Taf.new`, `addChange`, `TafIndicator` | `Spec/Timeline` (`InForce`, `Regular`, `InTimeOrder`), `Spec/Changes` | C46 for the whole list; the first change between two that is not PROB or TEMPO closes the earlier one; negations with witnesses |
| C103 | conversions, accessors, `Metar.new` | `Spec/Compare` (`Smaller`, `StatedBelow`, lists of units), `Spec/Quantities` | the stated quantities are multiples of 1/D and bounded, so different ones are further apart than the errors of C84; negation with a witness for close pressures |
| C104 | `Core.flightRules`, `Core.shouldBeCavok`, `prevailing` | `Spec/Rules` (`category`, `statedCeiling`, `VisStatedAt`), `Spec/GroupText` (`metresStated`) | amounts of miles are multiples of 1/2520 and 1852 has the prime factor 463, so no bound is hit and the gap exceeds the error; then C28, C29, C31; negation with witnesses for statute miles |
| C105 | `Metar.new`, `Taf.new`, `ChangePeriod.new`, `ChangeForecasted.new` under two clocks, years and months | `Spec/Moved` (`Moved`, `SameClock`, `TrendMoved`, `PeriodMoved`, `TempMoved`) | the handler tables of both readings have the same expressions, so the decoded groups are the same; C99 for what is not a time; minutes from the time of the report for what is; negation with a witness for FM changes in the next month |
| C106 | `Metar.new`, `Taf.new`, `Metar.json`, `Taf.json`, `Time.dict`, `normalizeCode` | `Spec/Archive` (`archived`, `yearMonth`, `Settled`) | reading the JSON text back (C70), the month in use given as arguments leaves the handlers as they are, the default time is overwritten or the time handler unused, the settled code is a fixed point of the clean-up; negations with witnesses |
| C107 | `Metar.new`, `Taf.new`, `ChangePeriod.new`, `ChangeForecasted.new`, wind and visibility patterns of both kinds | `Spec/Alike` (`ForecastPart`) | shape enumeration of both patterns gives the same captures for every group both match; then one reading for the four parts; negations with witnesses for what each part takes |
| C108 | `Metar.new`, `Taf.new`, the patterns of both | `Spec/Both` (`TafOnly`, `MetarOnly`, `SameContent`), `Spec/Ambiguity` | the paths of the patterns of the two kinds are compared in the kernel (as in C79); station and visibility cut the two increasing sequences of positions into regions where only one pairing is left; then C107; negation with witnesses |
| C109 | `parseSection`, `Metar.new`, `Taf.new`, the patterns | `Spec/Replace` (`Alike`, `OneOff`, `MetarBut`, `TafBut`), `Spec/Ambiguity` | the assignment of places is unique, and one that fits the groups before fits them after; attributes by C99, trends and changes by C77; kinds by C79, with a way through the pattern of the visibility for times and valid periods; negation with a witness |
| C110 | `parseSection`, `Metar.new`, `Taf.new` | `Spec/LeftOut` (`withKinds`, `FirstOfKind`, `SameOrGone`, `MetarLess`, `TafLess`, `ForecastLess`) | with groups left out every place is the same or lower, by induction on the sublist, and a lower place behind the first groups is of the same kind; attributes by C99, trends and changes by C77, unparsed by C08; the condition from C79; negation with a witness |
| C111 | `Visibility.setCavok`, `Metar.setsCavok`, `Taf.setsCavok` (`Model/Setters`) | `Spec/Setters` (`putAt`, `getAt`, `lastBool`) | induction on the assignments; the dictionary by its keys, which differ; the words by C21-C23 |
| C112 | the group classes and their accessors (`Model/Accessors`) | `Spec/Same` (`SameNumber`, `TellsIn`, `Cover.Alike`, `Kind.stated`, `WeatherGroup.stated`) | from C103: of two different quantities one is smaller, and so is its value in every unit; the descriptions by cases; reports by C84; negation with a witness for pressures in different units |
| C113 | `Model/Output`: the calls that lead to the `print` of `ChangePeriod._handle_time_period`, with their output | `Spec/Output` (`PeriodLines`) over C42's `LastOf`, `Takes` | the loop with output follows the loop without (simulation by induction over the groups); the lines along the chain of period groups, for each prefix the times of C42; `__main__.py` (`Model/Main`) by the refusals of C73, for any clock |
| C114 | `Metar.new`, `Taf.new` with two databases | `Spec/Tables` (`MetarElsewhere`, `TafElsewhere`, `SameFirstRows`) | two runs of the loop in step, the handlers pairwise alike: equal states before the handler of the station, equal elsewhere after it; every other handler appends to the text without looking at it or at the station |
| C115 | `Metar.new`, `Taf.new`, `ChangePeriod.new`, `ChangeForecasted.new`, `__str__` of all groups | `InTables`, `isDigit` | invariant of the text buffer over the run of the handlers, one lemma per `__str__`; a group whose text is shown holds ASCII and digits only, by C98's `telegraphic`, and the type is ASCII by its shapes; the tables of the library by the kernel, row by row |

Every property has a proof of the statement in `properties.jsonl`. Where the natural claim is false
of the code the statement was restricted, and the negation of the unrestricted claim is proved with
a witness (names ending in `_counterexample`, `_false`, `_lost`, `_needs_...`).

## Behaviour of the code found while proving

Each is a theorem or an example of the model unless marked (read).

Sections and words
* METAR: the body is the *last* chunk without keyword, the remark the last chunk opened by RMK, and
  `|` in the text splits as well. A station code beginning with RMK is cut off as a remark.
* TAF: after AMD or COR a station code beginning with FM is taken for a change: with a valid period
  the constructor raises AttributeError, otherwise the body is "TAF AMD" and there is no station.
* Four patterns have alternatives that are not closed by `$` (TAF visibility and temperature, both change
  indicators), so text behind a group is ignored there: `9999,` and `TX10/1512ZZ` are read, `TEMPO,` is
  an indicator without translation. Every word of a TAF body that begins with four digits can be taken
  for the visibility: a misspelt wind `09012KTS` gives 901 m and the real visibility is unparsed (C98).
* The flight rules follow the first broken or overcast layer as written, not the lowest: `OVC005 BKN020`
  gives IFR, `BKN020 OVC005` MVFR (C100).
* The hour before every FM or BECMG change belongs to no FM change, and an FM change less than an hour
  before the next one ends before it starts. FM changes may start after the end of the report (C102).
* More than five `PROBxx TEMPO` in one TAF: the sixth is split into two changes.
* A bare PROB30 followed by a TEMPO change is joined with it.
* The constructors do not look at the type: Metar reads "TAF ..." and Taf reads "METAR ...", and a text
  with the common groups only is accepted by both (C108).
* METAR trends: only the first TEMPO and the first BECMG are split off. "TEMPO A TEMPO B TEMPO C"
  gives two trends, "TEMPO A BECMG B TEMPO C" three and so RangeError. A second NOSIG stays
  unparsed in the first trend. "TEMPOX" shows the text of the trend twice.
* `A =` leaves a trailing blank, hence an empty group, which the weather pattern accepts: a spurious
  weather. The same happens after a two-word visibility at the end of a section.
* `sanitize_visibility` joins three times at most; "1 1/2SMX" becomes "1_1/2SM X".
* "METAR COR SBGR 071200Z": COR uses up the position of the modifier, station and time stay
  unparsed.

Times
* TIME accepts hour 24 and days beyond the month: ValueError. Years below 1000 are misread.
* A TAF without time group uses the current month whatever year and month are given; without valid
  group it is valid from 01:00 of the first day of the clock's month.
* A valid period whose day is not the day of issue is taken to be the next day, also for later days.
* TL2400 in a trend denotes a wrong instant. A trend time outside the two hours after the report is
  moved to the second next hour (TL1730 at 12:30 gives 14:30), or lies before the report (FM1220 at
  12:30 gives 12:20).
* An FM change is closed one hour before the next FM or BECMG change.
* An FM change in the next month lies a different number of days after the beginning of the validity when
  the text is read in a month of another length; valid groups and temperatures do not, because the library
  takes every other day for the next one (C105, C43).
* The JSON text of a TAF without valid group does not determine the report: its default period follows
  the clock (C106).

Groups
* Compass suffixes EE, EW, WE, WW of a visibility raise ValueError; "1/2KM" raises TypeError; "1/0SM"
  raises ZeroDivisionError. Statute miles are converted with 1852 m, the nautical mile; so 3SM counts as
  MVFR and 6SM passes for CAVOK (C104).
* The TAF patterns VISIBILITY, TEMPERATURE and CHANGE_INDICATOR match prefixes only; a weather group
  beginning with M or U in a TAF body without visibility is taken for a visibility. `////` is not
  accepted as visibility of a TAF. The changes of a TAF use the visibility pattern of a METAR, so `////`
  is taken there and `3000X`, taken in the body, is left; a wind `/////KT` is taken in a trend but not in
  a change (C107).
* A bare pressure above 2500 is converted from inches of mercury but not divided by 100. A second pressure replaces the first.
  A bare four-digit pressure without temperatures before it is taken for a visibility.
* "0VC" is accepted as cloud cover and decoded to None. The runway contamination table has no entry
  for 0. RUNWAY_RANGE rejects "/U". "WS ALL R10" is not joined.
* A third TX or TN, and a ninth change of a TAF, raise RangeError.
* `ceiling` raises TypeError for a BKN or OVC layer without height. `should_be_cavok` abandons an
  iteration, so that its answers alternate.
* `add_period` with code None raises TypeError, `set_valid_period` with code None AttributeError (read).

Text and dictionaries
* Zero is treated as missing: a value of zero is shown without its unit; a cloud base of 000 "at
  undefined height"; sea temperature 0 as "no temperature"; gusts and upper ranges of zero are left
  out; "XX/00" gives "temperature:  | dewpoint: 0.0".
* str() of a TAF shows of a change only its indicator, followed by an empty line, and keeps the
  original end of an FM period that was closed later.
* Dictionaries of trends and changes contain neither indicator nor unparsed groups; the one of the
  pressure has no code; the code of a TAF temperature is None; the ninth label is "nineth".
* Setting `cavok` by hand changes the words of the visibility and the dictionary, but not the text of the
  report, which keeps its line (C111).
* After `should_be_cavok()` on a trend or change (or a loop over its clouds that is left early), the
  next `as_dict()` of the report lacks the clouds already passed.
* The JSON texts of a surrogate pair and of the character it stands for are the same.

Tables
* Twenty IATA codes occur twice, and the first row wins: PVG is a station in Virginia and not
  Shanghai, PRG a station in Illinois and not Prague.
* The country codes CS, DN, TP and AN of the table of stations (27 rows, among them Sarajevo) are not
  in the table of countries.
* CYYW (Armstrong, Ontario) has the longitude ".88.54W" and is shown in China.
* 29 stations have codes that begin with FM, so that their amended TAFs are lost (see above). LTAF
  (Adana), which ends in TAF, is read correctly.
