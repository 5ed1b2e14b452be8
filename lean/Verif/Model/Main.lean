import Verif.Model.Output

/-
Running the package (`python -m aeromet_py`): `__main__.py`.
-/

namespace Verif

/-- `repr` of a text of printable ASCII without quotes and backslashes. -/
def plainRepr (s : PyStr) : PyStr := py!"'" ++ s ++ py!"'"

/-- `repr` of a list of such texts. -/
def plainReprList (l : List PyStr) : PyStr := py!"[" ++ join py!", " (l.map plainRepr) ++ py!"]"

/-- The text of the METAR (`__main__.py` 5). -/
def mainText : PyStr :=
  py!"METAR MROC 161900Z 09014KT 070V130 CAVOK 29/16 A2999 RMK VEL MAX VTO 25KT BECMG 08015G25KT"

/-- The program (`__main__.py` 4-8). -/
def mainProgram (db : Database) (clock : Clock) : Out Unit :=
  (Metar.printing db clock mainText {}).andThen fun r => ⟨[plainReprList r.sections], .ok ()⟩

end Verif
