import Verif.Lemmas.SmallForms

/-
The texts accepted as runway visual ranges.
-/

namespace Verif

set_option maxRecDepth 100000 in
theorem range_table : MetarRegExp.RUNWAY_RANGE.exact (altForms rangeSlots) = true := by
  decide +kernel

end Verif
