import Verif.Spec.Clouds
import Verif.Spec.Report
import Verif.Spec.Grammar
import Verif.Spec.Num

/-
Which decoded cloud states the same as a layer.
-/

namespace Verif.Spec

structure CloudSays (l : Layer) (c : Cloud) : Prop where
  code : c.code = some l.text
  cover : c.cover = l.cover.words
  oktas : c.oktas = some l.cover.eighths
  type : c.type = l.kind.words
  noHeight : l.base.hundredsOfFeet = none → c.height = none ∧ c.heightInFeet = none
  height : ∀ k, l.base.hundredsOfFeet = some k → ∃ x f : Rat, c.height = some ⟨x, false⟩ ∧
    c.heightInFeet = some ⟨f, false⟩ ∧ Within (1 / 10 ^ 9) x (3048 / 100 * k) ∧
    Within (1 / 10 ^ 8) f (100 * k)
  ground : l.base.hundredsOfFeet = some 0 → c.height = some (whole 0)

def cloudGrammar : Grammar Layer Cloud := ⟨Layer.WF, Layer.text, CloudSays⟩

end Verif.Spec
