import Verif.Model.Metar

/-
The standard output of the constructor of `Metar`. The `print` of
`ChangePeriod._handle_time_period` (weather_trend.py 97) is the only one of the library outside of
`__main__.py`. The other modules of the model leave it out; here the calls that lead to it are modelled
again, together with what they print.
-/

namespace Verif

/-- The lines a call prints, and its result or the exception it raises after printing them. -/
structure Out (α : Type) where
  lines : List PyStr
  result : Except Exc α

/-- A call that prints nothing. -/
def Out.silent {α : Type} (r : Except Exc α) : Out α := ⟨[], r⟩

/-- One call after the other; the second is not reached if the first raises. -/
def Out.andThen {α β : Type} (x : Out α) (f : α → Out β) : Out β :=
  match x.result with
  | .error e => ⟨x.lines, .error e⟩
  | .ok a => ⟨x.lines ++ (f a).lines, (f a).result⟩

/-- A `GroupHandler` (group.py 10) with what its method prints. -/
structure PrintingHandler (σ : Type) where
  regexp : RE
  run : Match → σ → Out σ

/-- The inner loop of `parse_section` (`base/__init__.py` 40-50), as `tryHandlers`. -/
def tryPrinting {σ : Type} : List (PrintingHandler σ) → PyStr → Nat → Option (Nat × Match × PrintingHandler σ)
  | [], _, _ => none
  | h :: hs, g, counter =>
    match h.regexp.match g with
    | some m => some (counter + 1, m, h)
    | none => tryPrinting hs g (counter + 1)

/-- The outer loop of `parse_section` (`base/__init__.py` 38-50), as `parseGo`. -/
def parsePrinting {σ : Type} (handlers : List (PrintingHandler σ)) :
    List PyStr → Nat → List PyStr → σ → Out (σ × List PyStr)
  | [], _, unparsed, s => .silent (.ok (s, unparsed))
  | g :: gs, index, unparsed, s =>
    let unparsed := unparsed ++ [g]
    match tryPrinting (handlers.drop index) g 0 with
    | none => parsePrinting handlers gs index unparsed s
    | some (counter, m, h) =>
      (h.run m s).andThen fun s' => parsePrinting handlers gs (index + counter) (unparsed.erase g) s'

/-- `print(self._change_indicator.period_at)`: `None` or `Time.__str__` (time.py 79-80). -/
def TrendIndicator.printAt (t : TrendIndicator) : PyStr :=
  match t.at_ with
  | none => py!"None"
  | some x => x.str

/-- `ChangePeriod._handle_time_period` (weather_trend.py 93-99). The `print` stands behind
`add_period`, so that nothing is printed when that raises. -/
def ChangePeriod.printTimePeriod (m : Match) (p : ChangePeriod) : Out ChangePeriod :=
  let old := p.indicator.str
  (Out.silent (p.indicator.addPeriod m)).andThen fun t =>
    ⟨[t.printAt],
     .ok { p with indicator := t, core := { p.core with string := replace p.core.string old t.str } }⟩

def ChangePeriod.quietly (h : Match → ChangePeriod → Except Exc ChangePeriod) :
    Match → ChangePeriod → Out ChangePeriod := fun m p => .silent (h m p)

/-- The handlers of `ChangePeriod._parse` (weather_trend.py 102-115). -/
def ChangePeriod.printingHandlers : List (PrintingHandler ChangePeriod) :=
  [⟨MetarRegExp.CHANGE_INDICATOR, quietly ChangePeriod.handleTrendIndicator⟩,
   ⟨MetarRegExp.TREND_TIME_PERIOD, ChangePeriod.printTimePeriod⟩,
   ⟨MetarRegExp.TREND_TIME_PERIOD, ChangePeriod.printTimePeriod⟩,
   ⟨MetarRegExp.WIND, quietly (ChangePeriod.lift Core.handleWind)⟩,
   ⟨MetarRegExp.VISIBILITY, quietly (ChangePeriod.lift Core.handlePrevailing)⟩,
   ⟨MetarRegExp.WEATHER, quietly (ChangePeriod.lift Core.handleWeather)⟩,
   ⟨MetarRegExp.WEATHER, quietly (ChangePeriod.lift Core.handleWeather)⟩,
   ⟨MetarRegExp.WEATHER, quietly (ChangePeriod.lift Core.handleWeather)⟩,
   ⟨MetarRegExp.CLOUD, quietly (ChangePeriod.lift Core.handleCloud)⟩,
   ⟨MetarRegExp.CLOUD, quietly (ChangePeriod.lift Core.handleCloud)⟩,
   ⟨MetarRegExp.CLOUD, quietly (ChangePeriod.lift Core.handleCloud)⟩,
   ⟨MetarRegExp.CLOUD, quietly (ChangePeriod.lift Core.handleCloud)⟩]

/-- `ChangePeriod.__init__` (weather_trend.py 72-81) and `_parse` (101-119), as `ChangePeriod.new`. -/
def ChangePeriod.printing (code : PyStr) (time : DT) : Out ChangePeriod :=
  let code' := replace code py!"_" py!" "
  (Out.silent (TrendIndicator.new none time)).andThen fun ind =>
    let p : ChangePeriod := { code := some code', time := time, indicator := ind }
    (parsePrinting ChangePeriod.printingHandlers (splitC 32 (sanitizeVisibility code')) 0 [] p).andThen
      fun x => .silent (.ok { x.1 with unparsed := x.1.unparsed ++ x.2 })

namespace Metar

/-- The loop of `Metar._parse_weather_trend` (metar.py 250-252) with `_handle_weather_trend`
(184-188), as `trendsGo`. -/
def trendsPrinting : List PyStr → Metar → Out Metar
  | [], r => .silent (.ok r)
  | t :: ts, r =>
    if t ≠ [] then
      (ChangePeriod.printing t r.time.time).andThen fun wt =>
        (Out.silent (r.weatherTrends.add wt)).andThen fun l =>
          trendsPrinting ts ({ r with weatherTrends := l }.concat wt.str)
    else trendsPrinting ts r

/-- `Metar._parse_weather_trend` (metar.py 236-263), as `parseWeatherTrend`. -/
def parseTrendPrinting (a : Args) (r : Metar) : Out Metar :=
  (trendsPrinting (splitSentence r.trend [py!"TEMPO", py!"BECMG"] 1 .both) r).andThen fun r =>
    let (wts, wl) := r.weatherTrends.iter
    let r := { r with
      weatherTrends := wl, unparsed := r.unparsed ++ wts.flatMap ChangePeriod.unparsed }
    if r.unparsed ≠ [] ∧ a.truncate then .silent (.error (Exc.parser (errorMessage r.unparsed r.rawCode)))
    else .silent (.ok r)

/-- `Metar.__init__` (metar.py 31-70) up to `_parse_body`, as `Metar.new`. Nothing is printed here. -/
def untilTrends (db : Database) (clock : Clock) (code : PyStr) (a : Args) : Except Exc Metar := do
  if code = [] then throw Exc.assertion
  let raw := normalizeCode code
  let _ ← Time.new (clock 0) none none none none none none
  let ty := ReportType.new (upper py!"METAR")
  let st ← Station.new db none []
  let (b, t, rm) := metarSections raw
  let time ← Time.fromMetar (clock 1) none a.year a.month
  let r : Metar :=
    { rawCode := raw, sections := [b, t, rm], type := ty, station := st, time := time,
      modifier := Modifier.new none }
  parseBody db (clock 2) a r

/-- `Metar.__init__` (metar.py 31-70), as `Metar.new`. -/
def printing (db : Database) (clock : Clock) (code : PyStr) (a : Args) : Out Metar :=
  (Out.silent (untilTrends db clock code a)).andThen (parseTrendPrinting a)

end Metar

end Verif
