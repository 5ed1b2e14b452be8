import Verif.Model.Json
import Verif.Model.Accessors

/-
`to_json` of the parts of a report.
-/

namespace Verif

/-- `Group.to_json` (group.py 43-45), `Numeric.to_json` (numeric.py 56-58) and `Wind.to_json`
(wind.py 277-278) of the object whose `as_dict` is `d`. -/
def partJson (d : PyVal) : PyStr := jsonVal d

/-- `GroupList.to_json` (group.py 124-126). -/
def GroupList.json {α : Type} (g : GroupList α) (f : α → Except Exc PyVal) : Except Exc PyStr := do
  let d ← g.asDict f
  return jsonVal d

end Verif
