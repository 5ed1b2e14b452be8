import Verif.Spec.JsonParts
import Verif.Spec.Json
import Verif.Spec.Text

/-
What an archive of JSON texts keeps of a report (C106).
-/

namespace Verif.Spec
open Verif

/-- The year and the month of a text that begins `YYYY-MM-`. -/
def yearMonth : PyStr → Option (Int × Int)
  | a :: b :: c :: d :: 45 :: m :: n :: 45 :: _ => some (digitsVal [a, b, c, d], digitsVal [m, n])
  | _ => none

/-- The code of a report and the year and month of its time, taken from its JSON text. -/
def archived (t : PyStr) : Option (PyStr × Int × Int) :=
  match readJson t with
  | none => none
  | some d =>
    match entry d py!"code", (entry d py!"time").bind (entry · py!"datetime") with
    | some (.str c), some (.str s) => (yearMonth s).map (c, ·)
    | _, _ => none

/-- A text that the clean-up of a report leaves alone. -/
structure Settled (s : PyStr) : Prop where
  filled : s ≠ []
  tidy : Tidy s
  trimmed : Trimmed s

end Verif.Spec
