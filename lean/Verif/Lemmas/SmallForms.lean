import Verif.Model.Regexps
import Verif.Lemmas.Slots

/-
What the patterns of the temperature, pressure, wind shear, sea state, runway state and runway range
groups match.
-/

namespace Verif

/-- One character of a class, captured, or nothing. -/
def Slot.optOne (k : CC) (c : Cap) : Slot := ⟨[([k], some c), ([], none)], [c]⟩
/-- Texts of some shapes, captured. -/
def Slot.shapes (kss : List (List CC)) (c : Cap) : Slot := ⟨kss.map fun k => (k, some c), [c]⟩

theorem Slot.optOne_has {k : CC} {c : Cap} {t : PyStr} {o : Option Cap} :
    (Slot.optOne k c).Has t o ↔ (∃ x, k.mem x = true ∧ t = [x] ∧ o = some c) ∨ (t = [] ∧ o = none) := by
  constructor
  · rintro ⟨a, ha, hs, ho⟩
    simp only [Slot.optOne, List.mem_cons, List.not_mem_nil, or_false] at ha
    rcases ha with rfl | rfl
    · obtain ⟨x, _, rfl, hx, hnil⟩ := hs
      cases hnil
      exact .inl ⟨x, hx, rfl, ho⟩
    · exact .inr ⟨hs, ho⟩
  · rintro (⟨x, hx, rfl, rfl⟩ | ⟨rfl, rfl⟩)
    · exact ⟨([k], some c), by simp [Slot.optOne], .cons hx .nil, rfl⟩
    · exact ⟨([], none), by simp [Slot.optOne], rfl, rfl⟩

theorem Slot.shapes_has {kss : List (List CC)} {c : Cap} {t : PyStr} {o : Option Cap} :
    (Slot.shapes kss c).Has t o ↔ (∃ ks ∈ kss, HasShape ks t) ∧ o = some c := by
  constructor
  · rintro ⟨a, ha, hs, ho⟩
    simp only [Slot.shapes, List.mem_map] at ha
    obtain ⟨ks, hk, rfl⟩ := ha
    exact ⟨⟨ks, hk, hs⟩, ho⟩
  · rintro ⟨⟨ks, hk, hs⟩, rfl⟩
    exact ⟨(ks, some c), List.mem_map.2 ⟨ks, hk, rfl⟩, hs, rfl⟩

def tempWords : List PyStr := [py!"//", py!"XX", py!"MM"]

def tempSlots : List Slot :=
  [Slot.opt [py!"M", py!"-"] .tsign, Slot.digits [2] tempWords .temp, Slot.lit py!"/",
   Slot.opt [py!"M", py!"-"] .dsign, Slot.digits [2] tempWords .dewpt]

theorem temp_table : MetarRegExp.TEMPERATURES.exact (altForms [(tempSlots, [])]) = true := by
  decide +kernel

def pressSlots : List Slot :=
  [Slot.opt [py!"A", py!"Q", py!"QNH"] .units, Slot.digits [4] [py!"////"] .press,
   Slot.opt [py!"INS"] .units2]

theorem press_table : MetarRegExp.PRESSURE.exact (altForms [(pressSlots, [])]) = true := by
  decide +kernel

/-- `[RCL]` and `[RLC]`. -/
def sideRCL : CC := .set [(82, 82), (67, 67), (76, 76)]
def sideRLC : CC := .set [(82, 82), (76, 76), (67, 67)]

/-- Two digits and a side, or two digits. -/
def Slot.runway (k : CC) (c : Cap) : Slot :=
  Slot.shapes [[.digit, .digit], [.digit, .digit, k]] c

def shearSlots : List (List Slot × List Cap) :=
  [([Slot.lit py!"WS", Slot.opt [py!"_ALL"] .all, Slot.lit py!"_RWY"], [.name]),
   ([Slot.lit py!"WS", Slot.opt [py!"_ALL"] .all, Slot.lit py!"_R", Slot.runway sideRCL .name], [])]

theorem shear_table : MetarRegExp.WINDSHEAR.exact (altForms shearSlots) = true := by
  decide +kernel

def seaSlots : List (List Slot × List Cap) :=
  [([Slot.lit py!"W", Slot.opt [py!"M"] .sign, Slot.digits [2] [] .temp, Slot.lit py!"/S",
      Slot.digits [1] [] .state], [.height]),
   ([Slot.lit py!"W", Slot.opt [py!"M"] .sign, Slot.digits [2] [] .temp, Slot.lit py!"/H",
      Slot.digits [3] [] .height], [.state])]

theorem sea_table : MetarRegExp.SEA_STATE.exact (altForms seaSlots) = true := by
  decide +kernel

/-- The runway of a runway state, which may be missing. -/
def Slot.optRunway (k : CC) (c : Cap) : Slot :=
  ⟨[([.digit, .digit, k], some c), ([.digit, .digit], some c), ([], none)], [c]⟩

def rwyStateSlots : List (List Slot × List Cap) :=
  [([Slot.lit py!"R", Slot.optRunway sideRLC .name, Slot.lit py!"/", Slot.digits [1] [py!"/"] .deposit,
      Slot.digits [1] [py!"/"] .cont, Slot.digits [2] [py!"//"] .depth,
      Slot.digits [2] [py!"//"] .fric], [.snoclo, .clrd]),
   ([Slot.lit py!"R", Slot.optRunway sideRLC .name, Slot.lit py!"/",
      Slot.shapes [litShape py!"SNOCLO"] .snoclo], [.deposit, .cont, .depth, .fric, .clrd]),
   ([Slot.lit py!"R", Slot.optRunway sideRLC .name, Slot.lit py!"/",
      Slot.shapes [litShape py!"CLRD//"] .clrd], [.deposit, .cont, .depth, .fric, .snoclo])]

theorem rwyState_table : MetarRegExp.RUNWAY_STATE.exact (altForms rwyStateSlots) = true := by
  decide +kernel

def limitMP : CC := .set [(77, 77), (80, 80)]
def tendNDU : CC := .set [(78, 78), (68, 68), (85, 85)]

def rangeSlots : List (List Slot × List Cap) :=
  [([Slot.lit py!"R", Slot.runway sideRLC .name, Slot.lit py!"/", Slot.optOne limitMP .rvrlow,
      Slot.digits [2, 3, 4] [] .low, Slot.lit py!"V", Slot.optOne limitMP .rvrhigh,
      Slot.digits [2, 3, 4] [] .high, Slot.opt [py!"FT"] .units, Slot.optOne tendNDU .trend], []),
   ([Slot.lit py!"R", Slot.runway sideRLC .name, Slot.lit py!"/", Slot.optOne limitMP .rvrlow,
      Slot.digits [2, 3, 4] [] .low, Slot.opt [py!"FT"] .units, Slot.optOne tendNDU .trend],
    [.rvrhigh, .high])]

end Verif
