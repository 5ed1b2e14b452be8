import Verif.Model.Taf

/-
Specification of what two reports with a section in common agree in.
-/

namespace Verif.Spec

/-- The reports agree in all that is read from the body of a METAR: in all attributes but the code, the
sections, the trends, and the text and the unparsed groups; of the last two, the trends only add their part
to what the body gives. -/
def SameMetarBody (r r' : Metar) : Prop :=
  { r' with rawCode := r.rawCode, sections := r.sections, unparsed := r.unparsed,
            weatherTrends := r.weatherTrends, core := { r'.core with string := r.core.string } } = r ∧
  ∃ s u,
    r.core.string = s ++ r.weatherTrends.list.flatMap (fun p => p.str ++ py!"\n") ∧
    r'.core.string = s ++ r'.weatherTrends.list.flatMap (fun p => p.str ++ py!"\n") ∧
    r.unparsed = u ++ r.weatherTrends.list.flatMap ChangePeriod.unparsed ∧
    r'.unparsed = u ++ r'.weatherTrends.list.flatMap ChangePeriod.unparsed

/-- The reports agree in all that is read from the body of a TAF. -/
def SameTafBody (r r' : Taf) : Prop :=
  { r' with rawCode := r.rawCode, changesCodes := r.changesCodes, unparsed := r.unparsed,
            changes := r.changes, core := { r'.core with string := r.core.string } } = r ∧
  ∃ u,
    r.unparsed = u ++ r.changes.list.flatMap ChangeForecasted.unparsed ∧
    r'.unparsed = u ++ r'.changes.list.flatMap ChangeForecasted.unparsed

/-- The changes are the same but for the end of the period of an `FM` indicator, which the next change
sets, and the text buffer. -/
def SameChange (c c' : ChangeForecasted) : Prop :=
  { c' with indicator := c.indicator, core := { c'.core with string := c.core.string } } = c ∧
  c'.indicator.code = c.indicator.code ∧ c'.indicator.valid.from_ = c.indicator.valid.from_ ∧
  ((∀ s, c.indicator.code = some s → startsWith s py!"FM" = false) → c'.indicator = c.indicator)

end Verif.Spec
