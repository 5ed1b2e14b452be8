
import Verif.Model.Regexps
import Verif.Lemmas.Exact

/-
The forms of wind groups.
-/

namespace Verif

def dirLo : List CC := [.set [(48, 50)], .set [(48, 57)], CC.one 48]
def dirHi : List CC := [CC.one 51, .set [(48, 54)], CC.one 48]

/-- One form for each shape of direction, `P`, speed, gust and unit. -/
def windForms (dirs speeds : List (List CC)) : List Form :=
  dirs.flatMap fun d => [[], litShape py!"P"].flatMap fun p => speeds.flatMap fun s =>
    ([([], [], none), (litShape py!"G", List.replicate 2 .digit, some 4),
      (litShape py!"G", List.replicate 3 .digit, some 4),
      (litShape py!"GP", List.replicate 2 .digit, some 4),
      (litShape py!"GP", List.replicate 3 .digit, some 4)] :
      List (List CC × List CC × Option Nat)).flatMap fun g =>
    [litShape py!"KT", litShape py!"MPS"].map fun u =>
      ([d, p, s, g.1, g.2.1, u], [(.dir, some 0), (.speed, some 2), (.gust, g.2.2), (.units, some 5)])

def metarWindForms : List Form :=
  windForms [dirLo, dirHi, litShape py!"///", litShape py!"VRB"]
    [List.replicate 2 .digit, List.replicate 3 .digit, litShape py!"//", litShape py!"///"]

def tafWindForms : List Form :=
  windForms [dirLo, dirHi, litShape py!"VRB"] [List.replicate 2 .digit, List.replicate 3 .digit]

set_option maxRecDepth 100000 in
theorem metarWind_exact : MetarRegExp.WIND.exact metarWindForms = true := by decide +kernel
set_option maxRecDepth 100000 in
theorem tafWind_exact : TafRegExp.WIND.exact tafWindForms = true := by decide +kernel

end Verif
