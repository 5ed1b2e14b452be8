import Verif.Spec.Report
import Verif.Spec.Grammar
import Verif.Spec.Num
import Verif.Spec.Temperatures

/-
Runway range, wind shear, sea state and runway state groups as a person reads them.
-/

namespace Verif.Spec

/-! ### Runways -/

inductive Side where
  | right | left | center
deriving DecidableEq, Repr

def Side.text : Side → PyStr
  | .right => py!"R" | .left => py!"L" | .center => py!"C"

def Side.word : Side → PyStr
  | .right => py!"right" | .left => py!"left" | .center => py!"center"

/-- The designator of a runway: two digits and an optional side. -/
structure RunwayCode where
  digits : PyStr
  side : Option Side := none
deriving DecidableEq, Repr

def sideText : Option Side → PyStr
  | none => []
  | some s => s.text

def RunwayCode.text (r : RunwayCode) : PyStr := r.digits ++ sideText r.side

def RunwayCode.WF (r : RunwayCode) : Prop := r.digits.length = 2 ∧ ∀ c ∈ r.digits, isDigit c = true

/-- The runway in words, without the two special numbers. -/
def RunwayCode.plain (r : RunwayCode) : PyStr :=
  match r.side with
  | none => r.digits
  | some s => r.digits ++ py!" " ++ s.word

/-- The runway in words; `88` stands for all runways, `99` for the previous one. -/
def RunwayCode.spoken (r : RunwayCode) : PyStr :=
  if r.text = py!"88" then py!"all runways"
  else if r.text = py!"99" then py!"repeated"
  else r.plain

/-! ### Runway visual range -/

inductive Limit where
  | below | above
deriving DecidableEq, Repr

def Limit.text : Limit → PyStr
  | .below => py!"M" | .above => py!"P"

def Limit.means : Limit → PyStr
  | .below => py!"below of" | .above => py!"above of"

inductive Tendency where
  | same | up | down
deriving DecidableEq, Repr

def Tendency.text : Tendency → PyStr
  | .same => py!"N" | .up => py!"U" | .down => py!"D"

def Tendency.means : Tendency → PyStr
  | .same => py!"no change" | .up => py!"increasing" | .down => py!"decreasing"

def limitText : Option Limit → PyStr
  | none => []
  | some l => l.text

def tendencyText : Option Tendency → PyStr
  | none => []
  | some t => t.text

/-- A visual range: an optional limit and two to four digits. -/
structure RangeValue where
  limit : Option Limit := none
  digits : PyStr
deriving DecidableEq, Repr

def RangeValue.text (v : RangeValue) : PyStr := limitText v.limit ++ v.digits

def RangeValue.WF (v : RangeValue) : Prop :=
  (v.digits.length = 2 ∨ v.digits.length = 3 ∨ v.digits.length = 4) ∧
    ∀ c ∈ v.digits, isDigit c = true

/-- The range in metres: exact in metres (9999 stands for 10 km), one foot is 0.3048 m. -/
def RangeValue.SaysMetres (v : RangeValue) (feet : Bool) (x : Option F64) : Prop :=
  if feet then ∃ y : Rat, x = some ⟨y, false⟩ ∧ Rel (1 / 10 ^ 15) y (digitsVal v.digits * (3048 / 10000))
  else x = some (whole (if v.digits = py!"9999" then 10000 else digitsVal v.digits))

/-- A runway visual range group. -/
structure RangeGroup where
  runway : RunwayCode
  low : RangeValue
  high : Option RangeValue := none
  feet : Bool := false
  tendency : Option Tendency := none
deriving DecidableEq, Repr

def highText : Option RangeValue → PyStr
  | none => []
  | some v => py!"V" ++ v.text

def RangeGroup.text (g : RangeGroup) : PyStr :=
  py!"R" ++ g.runway.text ++ py!"/" ++ g.low.text ++ highText g.high ++
    (if g.feet then py!"FT" else []) ++ tendencyText g.tendency

def RangeGroup.WF (g : RangeGroup) : Prop :=
  g.runway.WF ∧ g.low.WF ∧ ∀ v, g.high = some v → v.WF

structure RangeSays (g : RangeGroup) (x : RunwayRange) : Prop where
  code : x.code = some (shown g.text)
  name : x.name = some g.runway.spoken
  lowLimit : x.rvrLow = g.low.limit.map Limit.means
  low : g.low.SaysMetres g.feet x.low
  highLimit : x.rvrHigh = (g.high.bind RangeValue.limit).map Limit.means
  high : ∀ v, g.high = some v → v.SaysMetres g.feet x.high
  noHigh : g.high = none → x.high = none
  trend : x.trend = g.tendency.map Tendency.means

def rangeGrammar : Grammar RangeGroup RunwayRange := ⟨RangeGroup.WF, RangeGroup.text, RangeSays⟩

/-! ### Wind shear -/

/-- A wind shear group, with `_` between its words; without a runway it ends in `RWY`. -/
structure ShearGroup where
  all : Bool := false
  runway : Option RunwayCode := none
deriving DecidableEq, Repr

def ShearGroup.text (g : ShearGroup) : PyStr :=
  py!"WS" ++ (if g.all then py!"_ALL" else []) ++
    match g.runway with
    | none => py!"_RWY"
    | some r => py!"_R" ++ r.text

def ShearGroup.WF (g : ShearGroup) : Prop := ∀ r, g.runway = some r → r.WF

def shearGrammar : Grammar ShearGroup Windshear where
  WF := ShearGroup.WF
  text := ShearGroup.text
  Says g x := x.code = some (shown g.text) ∧ x.all_ = g.all ∧ x.name = g.runway.map RunwayCode.plain

/-! ### Sea state -/

/-- State of the sea (one digit) or significant height of the waves (three digits). -/
inductive SeaValue where
  | state (d : Nat) | height (ds : PyStr)
deriving DecidableEq, Repr

structure SeaGroup where
  minus : Bool := false
  temp : PyStr
  value : SeaValue
deriving DecidableEq, Repr

def SeaValue.text : SeaValue → PyStr
  | .state d => py!"/S" ++ [d]
  | .height ds => py!"/H" ++ ds

def SeaValue.WF : SeaValue → Prop
  | .state d => isDigit d = true
  | .height ds => ds.length = 3 ∧ ∀ c ∈ ds, isDigit c = true

def SeaGroup.text (g : SeaGroup) : PyStr :=
  py!"W" ++ (if g.minus then py!"M" else []) ++ g.temp ++ g.value.text

def SeaGroup.WF (g : SeaGroup) : Prop :=
  (g.temp.length = 2 ∧ ∀ c ∈ g.temp, isDigit c = true) ∧ g.value.WF

/-- The WMO table 3700. -/
def seaWords : List PyStr :=
  [py!"calm (glassy)", py!"calm (rippled)", py!"smooth (wavelets)", py!"slight", py!"moderate",
   py!"rough", py!"very rough", py!"high", py!"very high", py!"phenomenal"]

/-- The description of an ASCII digit; the library has none for other digits. -/
def digitWord (words : List PyStr) (d : Nat) : Option PyStr :=
  if 48 ≤ d ∧ d < 58 then words[d - 48]? else none

def SeaValue.stateWord : SeaValue → Option PyStr
  | .state d => digitWord seaWords d
  | .height _ => none

/-- The height in metres: the double nearest to the tenths stated. -/
def SeaValue.metres : SeaValue → Option F64
  | .state _ => none
  | .height ds => some ⟨rnd (digitsVal ds / 10), false⟩

def seaGrammar : Grammar SeaGroup SeaState where
  WF := SeaGroup.WF
  text := SeaGroup.text
  Says g x := x.code = some (shown g.text) ∧
    x.temperature = some (signed g.minus (digitsVal g.temp)) ∧
    x.state = g.value.stateWord ∧ x.height = g.value.metres

/-! ### Runway state -/

/-- Deposits, contamination, depth and friction (`none` for slashes), or one of the two words. -/
inductive RwyReport where
  | state (deposit cont : Option Nat) (depth fric : Option PyStr)
  | snoclo
  | clrd
deriving DecidableEq, Repr

def oneText : Option Nat → PyStr
  | none => py!"/"
  | some d => [d]

def twoText : Option PyStr → PyStr
  | none => py!"//"
  | some ds => ds

def RwyReport.text : RwyReport → PyStr
  | .state a b c d => oneText a ++ oneText b ++ twoText c ++ twoText d
  | .snoclo => py!"SNOCLO"
  | .clrd => py!"CLRD//"

def oneWF (o : Option Nat) : Prop := ∀ d, o = some d → isDigit d = true

def twoWF (o : Option PyStr) : Prop :=
  ∀ ds, o = some ds → ds.length = 2 ∧ ∀ c ∈ ds, isDigit c = true

def RwyReport.WF : RwyReport → Prop
  | .state a b c d => oneWF a ∧ oneWF b ∧ twoWF c ∧ twoWF d
  | _ => True

structure RwyStateGroup where
  runway : Option RunwayCode := none
  report : RwyReport
deriving DecidableEq, Repr

def runwayText : Option RunwayCode → PyStr
  | none => []
  | some r => r.text

def RwyStateGroup.text (g : RwyStateGroup) : PyStr :=
  py!"R" ++ runwayText g.runway ++ py!"/" ++ g.report.text

def RwyStateGroup.WF (g : RwyStateGroup) : Prop :=
  (∀ r, g.runway = some r → r.WF) ∧ g.report.WF

/-- WMO table 0919, and the mark for an unknown deposit. -/
def depositWords : List PyStr :=
  [py!"clear and dry", py!"damp", py!"wet and water patches",
   py!"rime and frost covered (depth normally less than 1 mm)", py!"dry snow", py!"wet snow",
   py!"slush", py!"ice", py!"compacted or rolled snow", py!"frozen ruts or ridges"]

def depositMeans : Option Nat → Option PyStr
  | none => some py!"type of deposit not reported (e.g. due to runway clearance in progress)"
  | some d => digitWord depositWords d

/-- WMO table 0519, which has no entry for 0. -/
def contMeans : Option Nat → Option PyStr
  | none => some py!"not reported"
  | some d =>
    if d = 48 + 1 then some py!"less than 10% of runway"
    else if d = 48 + 2 then some py!"11%-25% of runway"
    else if d = 48 + 5 then some py!"26%-50% of runway"
    else if d = 48 + 9 then some py!"51%-100% of runway"
    else if 48 + 0 < d ∧ d < 48 + 9 then some py!"reserved"
    else none

/-- WMO table 1079 outside the millimetres. -/
def depthTable : List (PyStr × PyStr) :=
  [(py!"00", py!"less than 1 mm"), (py!"91", py!"reserved"), (py!"92", py!"10 cm"),
   (py!"93", py!"15 cm"), (py!"94", py!"20 cm"), (py!"95", py!"25 cm"), (py!"96", py!"30 cm"),
   (py!"97", py!"35 cm"), (py!"98", py!"40 cm or more"),
   (py!"99", py!"runway(s) non-operational due to snow, slush, ice, large drifts or runway clearance, but depth not reported")]

/-- Other than ASCII digits work in the millimetres only. -/
def depthMeans : Option PyStr → Option PyStr
  | none => some py!"depth of deposit operationally not significant or not measurable"
  | some ds =>
    if 1 ≤ digitsVal ds ∧ digitsVal ds ≤ 90 then some (natStr (digitsVal ds) ++ py!" mm")
    else depthTable.lookup ds

/-- WMO table 0366 above the coefficients. -/
def fricTable : List (PyStr × PyStr) :=
  [(py!"91", py!"breaking action poor"), (py!"92", py!"breaking action medium/poor"),
   (py!"93", py!"breaking action medium"), (py!"94", py!"breaking action medium/good"),
   (py!"95", py!"breaking action good"), (py!"96", py!"reserved"), (py!"97", py!"reserved"),
   (py!"98", py!"reserved"), (py!"99", py!"breaking action unreliable")]

def fricMeans : Option PyStr → Option PyStr
  | none => some py!"breaking conditions not reported and/or runway not operational"
  | some ds =>
    if digitsVal ds ≤ 90 then some (py!"0." ++ padNat 2 (digitsVal ds)) else fricTable.lookup ds

/-- What `clrd` says about a runway. -/
def clearedText (name : Option PyStr) : PyStr :=
  match name with
  | none => py!"contaminations have ceased to exists on runway None"
  | some n =>
    if n = py!"repeated" then py!"contaminations have ceased to exists on previous runway"
    else if n = py!"all runways" then py!"contaminations have ceased to exists on all runways"
    else py!"contaminations have ceased to exists on runway " ++ n

def RwyReport.deposit : RwyReport → Option PyStr
  | .state a _ _ _ => depositMeans a
  | _ => none
def RwyReport.cont : RwyReport → Option PyStr
  | .state _ b _ _ => contMeans b
  | _ => none
def RwyReport.depth : RwyReport → Option PyStr
  | .state _ _ c _ => depthMeans c
  | _ => none
def RwyReport.fric : RwyReport → Option PyStr
  | .state _ _ _ d => fricMeans d
  | _ => none

/-- A description, or what Python prints when there is none. -/
def orNone (o : Option PyStr) : PyStr := o.getD py!"None"

/-- The deposits in words: a depth that is no measure comes without "deposits of". -/
def depositShows (deposit : Option Nat) (depth : Option PyStr) : PyStr :=
  match deposit, decide (depth = none ∨ depth = some py!"99") with
  | none, true => orNone (depthMeans depth) ++ py!" and " ++ orNone (depositMeans deposit)
  | none, false => py!"depth of " ++ orNone (depthMeans depth) ++ py!" but " ++ orNone (depositMeans deposit)
  | some _, true => orNone (depthMeans depth) ++ py!" of " ++ orNone (depositMeans deposit)
  | some _, false =>
    py!"deposits of " ++ orNone (depthMeans depth) ++ py!" of " ++ orNone (depositMeans deposit)

/-- The friction in words: a coefficient is announced. -/
def fricShows (fric : Option PyStr) : PyStr :=
  (if fric.any fun ds => decide (digitsVal ds ≤ 90) then py!"estimated surface friction " else []) ++
    orNone (fricMeans fric)

/-- What is shown of a runway state group. -/
def RwyStateGroup.shows (g : RwyStateGroup) : PyStr :=
  match g.report with
  | .snoclo => py!"aerodrome is closed due to extreme deposit of snow"
  | .clrd => clearedText (g.runway.map RunwayCode.spoken)
  | .state a b c d => orNone (g.runway.map RunwayCode.spoken) ++ py!", " ++ depositShows a c ++
      py!", contamination " ++ orNone (contMeans b) ++ py!", " ++ fricShows d

structure RwyStateSays (g : RwyStateGroup) (x : RunwayState) : Prop where
  code : x.code = some (shown g.text)
  name : x.name = g.runway.map RunwayCode.spoken
  deposits : x.deposits = g.report.deposit
  contamination : x.contamination = g.report.cont
  depth : x.depth = g.report.depth
  friction : x.friction = g.report.fric
  snoclo : x.snoclo = decide (g.report = .snoclo)
  cleared : x.clrd = if g.report = .clrd then some (clearedText (g.runway.map RunwayCode.spoken)) else none
  shown : x.str = g.shows

def rwyStateGrammar : Grammar RwyStateGroup RunwayState :=
  ⟨RwyStateGroup.WF, RwyStateGroup.text, RwyStateSays⟩

end Verif.Spec
