import Verif.Spec.RoundTrip
import Verif.Spec.Direction

/-
What is shown of a group (`str` of the object decoded from it), said from the group as written.
-/

namespace Verif.Spec

/-- The grammar together with what is shown of the groups. -/
def Grammar.showing {γ α : Type} (G : Grammar γ α) (str : α → PyStr) (Shows : γ → PyStr → Prop) :
    Grammar γ α := ⟨G.WF, G.text, fun w x => G.Says w x ∧ Shows w (str x)⟩

/-! ### Numbers -/

/-- The number of tenths `k` with a decimal point. -/
def tenths (k : Nat) : PyStr := natStr (k / 10) ++ py!"." ++ natStr (k % 10)

/-- A whole number with one decimal. -/
def wholeText (n : Nat) : PyStr := natStr n ++ py!".0"

/-- `t` is the number `q ≥ 0` rounded to one decimal; the floating point numbers may decide
differently within 1e-9 of the middle of two decimals. -/
def OneDecimal (q : Rat) (t : PyStr) : Prop :=
  ∃ k : Nat, t = tenths k ∧ Within (1 / 20 + 1 / 10 ^ 9) (k / 10) q

/-- A number and its unit, which is missing after zero. -/
def Measure (unit : PyStr) (q : Rat) (t : PyStr) : Prop :=
  if q = 0 then t = py!"0.0" else ∃ s, OneDecimal q s ∧ t = s ++ unit

/-- The same for a whole number. -/
def wholeMeasure (unit : PyStr) (n : Nat) : PyStr := wholeText n ++ if n = 0 then [] else unit

/-- Degrees with the point of the compass. -/
def Compass (d : Nat) (name t : PyStr) : Prop :=
  IsCardinal name d ∧ t = py!"(" ++ wholeText d ++ py!"°)"

/-! ### Wind -/

/-- The words for a direction. Zero degrees come without unit. -/
def WindDir.Shows : WindDir → List PyStr → Prop
  | .tens n, l => if n = 0 then l = [py!"N", py!"0.0"] else ∃ name t, Compass (10 * n) name t ∧ l = [name, t]
  | .undef, l => l = []
  | .vrb, l => l = [py!"variable wind"]

/-- A speed in knots. -/
def KnotsShown (mps : Bool) (n : Nat) (t : PyStr) : Prop :=
  if mps then Measure py!" kt" (n / (51444444 / 100000000)) t else t = wholeMeasure py!" kt" n

def SpeedShown (mps : Bool) : Option Nat → List PyStr → Prop
  | none, l => l = []
  | some n, l => ∃ t, KnotsShown mps n t ∧ l = [t]

/-- The gust, unless it is zero. -/
def GustShown (mps : Bool) : Option Nat → PyStr → Prop
  | none, s => s = []
  | some n, s => if n = 0 then s = [] else ∃ t, KnotsShown mps n t ∧ s = py!" gust of " ++ t

def WindGroup.Shows (w : WindGroup) (t : PyStr) : Prop :=
  ∃ d s g, w.dir.Shows d ∧ SpeedShown w.mps w.speed.number s ∧ GustShown w.mps w.gustNumber g ∧
    t = join [32] (d ++ s) ++ g

def VariationGroup.Shows (v : VariationGroup) (t : PyStr) : Prop :=
  ∃ n1 t1 n2 t2, Compass (10 * v.from_) n1 t1 ∧ Compass (10 * v.to) n2 t2 ∧
    t = py!"from " ++ n1 ++ py!" " ++ t1 ++ py!" to " ++ n2 ++ py!" " ++ t2

/-! ### Visibility -/

/-- The stated visibility in metres. -/
def VisGroup.metresStated : VisGroup → Option Rat
  | .metres v _ => v.number.map fun n : Nat => (n : Rat)
  | .range r =>
    match r.unit with
    | .sm => if r.integer = none ∧ r.fraction = none then none else some (r.amount * 1852)
    | .km => r.integer.map fun ds => ((digitsVal ds * 1000 : Nat) : Rat)
    | .m | .u => none
  | .cavok => some 10000

/-- Kilometres, then the direction. -/
def VisGroup.Shows (g : VisGroup) (t : PyStr) : Prop :=
  if g = .cavok then t = py!"Ceiling and Visibility OK"
  else ∃ km dir : PyStr,
    (match g.metresStated with
      | none => km = []
      | some q => ∃ s, OneDecimal (q / 1000) s ∧ km = s ++ py!" km") ∧
    (match g.degrees with
      | none => dir = []
      | some d => ∃ name u, Compass d name u ∧ dir = py!" to " ++ name ++ py!" " ++ u) ∧
    t = km ++ dir

/-! ### Runway visual range -/

def limitShows : Option Limit → PyStr
  | none => []
  | some l => l.means ++ py!" "

/-- The metres, before them the limit. -/
def RangeValue.Shows (v : RangeValue) (feet : Bool) (t : PyStr) : Prop :=
  ∃ s, t = limitShows v.limit ++ s ∧
    if feet then Measure py!" m" (digitsVal v.digits * (3048 / 10000)) s
    else s = wholeMeasure py!" m" (if v.digits = py!"9999" then 10000 else digitsVal v.digits)

/-- The second value is not shown if it is zero. -/
def RangeGroup.Shows (g : RangeGroup) (t : PyStr) : Prop :=
  ∃ low high, g.low.Shows g.feet low ∧
    (match g.high with
      | none => high = []
      | some v => if digitsVal v.digits = 0 then high = []
          else ∃ s, v.Shows g.feet s ∧ high = py!" varying to " ++ s) ∧
    t = py!"runway " ++ g.runway.spoken ++ py!" " ++ low ++ high ++
      match g.tendency with
      | none => []
      | some x => py!", " ++ x.means

/-! ### Weather -/

/-- The descriptions of the parts. -/
def WeatherGroup.shows (w : WeatherGroup) : PyStr :=
  join [32] (w.intensity.toList.map Intensity.means ++ w.descriptor.toList.map Descriptor.means ++
    (w.phenomenon.bind Phenomenon.precipitation).toList.map Precipitation.means ++
    (w.phenomenon.bind Phenomenon.obscuration).toList.map Obscuration.means ++
    (w.phenomenon.bind Phenomenon.otherWeather).toList.map OtherWeather.means)

def RecentGroup.shows (w : RecentGroup) : PyStr :=
  join [32] (w.descriptor.toList.map Descriptor.means ++ w.precipitation.toList.map Precipitation.means ++
    w.obscuration.toList.map Obscuration.means ++ w.other.toList.map OtherWeather.means)

/-! ### Clouds -/

/-- The cover, the height in feet, the type. Without height, or at height zero, the type is not
shown. -/
def Layer.shows (l : Layer) : PyStr :=
  match l.base.hundredsOfFeet with
  | some (k + 1) => orNone l.cover.words ++ py!" at " ++ wholeText (100 * (k + 1)) ++ py!" feet" ++
      match l.kind.words with
      | none => []
      | some w => py!" of " ++ w
  | _ =>
    match l.cover with
    | .skc | .clr | .nsc | .ncd | .undef | .vv => orNone l.cover.words
    | .few | .sct | .bkn | .ovc | .zvc => orNone l.cover.words ++ py!" at undefined height"

/-! ### Temperatures and pressure -/

/-- Degrees Celsius; the unit is missing after zero. -/
def celsius (neg : Bool) (n : Nat) : PyStr := (if neg then py!"-" else []) ++ wholeMeasure py!"°C" n

def TempPart.shows (t : TempPart) : Option PyStr := t.number.value.map (celsius t.minus.isSome)

/-- An unknown temperature with the dew point zero is left blank. -/
def TempGroup.shows (g : TempGroup) : PyStr :=
  match g.air.shows, g.dew.shows with
  | none, none => []
  | none, some d => (if g.dew.number.value = some 0 then py!"temperature:  | dewpoint: "
      else py!"no temperature | dewpoint: ") ++ d
  | some t, none => py!"temperature: " ++ t ++ py!" | no dewpoint"
  | some t, some d => py!"temperature: " ++ t ++ py!" | dewpoint: " ++ d

/-- The stated pressure in hectopascals. -/
def PressGroup.hectopascals (g : PressGroup) : Option Rat :=
  g.number.map fun ds =>
    if g.letters = some .A ∨ g.ins = true then digitsVal ds / 100 / (2953 / 100000)
    else if g.letters = none ∧ 2500 < digitsVal ds then digitsVal ds / (2953 / 100000)
    else digitsVal ds

def PressGroup.Shows (g : PressGroup) (t : PyStr) : Prop :=
  match g.hectopascals with
  | none => t = []
  | some q => Measure py!" hPa" q t

/-! ### Wind shear and sea -/

def ShearGroup.shows (g : ShearGroup) : PyStr :=
  match g.runway with
  | some r => r.plain
  | none => if g.all then py!"all" else []

/-- A temperature or a height of zero counts as none. -/
def SeaGroup.shows (g : SeaGroup) : PyStr :=
  (if digitsVal g.temp = 0 then py!"no temperature, "
    else py!"temperature " ++ celsius g.minus (digitsVal g.temp) ++ py!", ") ++
  (match g.value with
    | .state _ => py!"no significant wave height, "
    | .height ds => if digitsVal ds = 0 then py!"no significant wave height, "
        else py!"significant wave height " ++ tenths (digitsVal ds) ++ py!" m, ") ++
  g.value.stateWord.getD py!"no sea state"

end Verif.Spec
