import Verif.Spec.Periods
import Verif.Spec.RecordText
import Verif.Model.Output

/-
What is printed for the period groups of a trend.
-/

namespace Verif.Spec

/-- For every group one line: `None` as long as no `AT` group has come, and then the instant the last one
is taken for, counted from the time `t` of the report. -/
def PeriodLines (t : DT) (gs : List PyStr) (lines : List PyStr) : Prop :=
  lines.length = gs.length ∧ ∀ k line, lines[k]? = some line →
    (NoneOf .at_ (gs.take (k + 1)) → line = py!"None") ∧
    ∀ w, LastOf .at_ (gs.take (k + 1)) w → ∃ u, w.Takes t u ∧ line = instantText u

/-- `None`, or an instant of the calendar. -/
def IsLine (l : PyStr) : Prop := l = py!"None" ∨ ∃ u, IsTime u ∧ l = instantText u

end Verif.Spec
