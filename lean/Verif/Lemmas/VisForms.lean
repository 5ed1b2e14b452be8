import Verif.Model.Regexps
import Verif.Lemmas.Exact

/-
The forms of visibility groups.
-/

namespace Verif

def nsew : CC := .set [(78, 78), (83, 83), (69, 69), (87, 87)]
def ew : CC := .set [(69, 69), (87, 87)]

def noRange : List (Cap × Option Nat) := [(.integer, none), (.fraction, none), (.units, none), (.cavok, none)]

/-- Metres with or without direction. -/
def metresForms (vs : List (List CC)) (extra : List (Cap × Option Nat)) : List Form :=
  vs.flatMap fun v => [([], none), ([nsew], some 1), ([nsew, ew], some 1)].map fun d =>
    ([v, d.1], (.vis, some 0) :: (.dir, d.2) :: extra)

/-- Prefix, integer, underscore, fraction and unit. -/
def rangeForms : List Form :=
  [litShape [], litShape py!"M", litShape py!"P"].flatMap fun p =>
  [([], none), (List.replicate 1 .digit, some 1), (List.replicate 2 .digit, some 1)].flatMap fun i =>
  [litShape [], litShape py!"_"].flatMap fun j =>
  [([], none), ([.digit, CC.one 47, .digit], some 3)].flatMap fun f =>
  [litShape py!"SM", litShape py!"KM", litShape py!"M", litShape py!"U"].map fun u =>
    ([p, i.1, j, f.1, u], [(.integer, i.2), (.fraction, f.2), (.units, some 4), (.vis, none),
      (.dir, none), (.cavok, none)])

def cavokForm : Form :=
  ([litShape py!"CAVOK"], [(.cavok, some 0), (.vis, none), (.dir, none), (.integer, none),
    (.fraction, none), (.units, none)])

def visForms : List Form :=
  metresForms [List.replicate 4 .digit, litShape py!"////"] noRange ++ rangeForms ++ [cavokForm]

def tafVisForms : List Form :=
  metresForms [List.replicate 4 .digit] noRange ++ rangeForms ++ [cavokForm]

def minVisForms : List Form := metresForms [List.replicate 4 .digit, litShape py!"////"] []

set_option maxRecDepth 100000 in
theorem vis_exact : MetarRegExp.VISIBILITY.exact visForms = true := by decide +kernel

theorem minVis_exact : MetarRegExp.MINIMUM_VISIBILITY.exact minVisForms = true := by decide +kernel

set_option maxRecDepth 100000 in
theorem tafVis_begins : TafRegExp.VISIBILITY.begins tafVisForms = true := by decide +kernel

end Verif
