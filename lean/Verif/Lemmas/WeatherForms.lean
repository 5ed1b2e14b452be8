import Verif.Model.Regexps
import Verif.Lemmas.Slots

/-
What the weather pattern matches: an optional intensity, an optional descriptor and an optional
phenomenon, in this order and nothing else.
-/

namespace Verif

def intensityWords : List PyStr := [py!"-VC", py!"+VC", py!"-", py!"+", py!"VC"]

def descriptorWords : List PyStr :=
  [py!"MI", py!"PR", py!"BC", py!"DR", py!"BL", py!"SH", py!"TS", py!"FZ"]

def precWords : List PyStr :=
  [py!"DZ", py!"RA", py!"SN", py!"SG", py!"IC", py!"PL", py!"GR", py!"GS", py!"UP"]

def obscWords : List PyStr :=
  [py!"BR", py!"FG", py!"FU", py!"VA", py!"DU", py!"SA", py!"HZ", py!"PY"]

def otherWords : List PyStr :=
  [py!"PO", py!"SQ", py!"FC", py!"SS", py!"DS", py!"NSW", py!"/"]

/-- The phenomenon: of one of three kinds, or none. -/
def phenSlot : Slot :=
  ⟨(precWords.map fun w => (litShape w, some .prec)) ++
    (obscWords.map fun w => (litShape w, some .obsc)) ++
    (otherWords.map fun w => (litShape w, some .other)) ++ [([], none)],
   [.prec, .obsc, .other]⟩

def weatherSlots : List Slot :=
  [Slot.opt intensityWords .int, Slot.opt descriptorWords .desc, phenSlot]

set_option maxRecDepth 100000 in
theorem weather_table : MetarRegExp.WEATHER.exact (altForms [(weatherSlots, [])]) = true := by
  decide +kernel

end Verif
