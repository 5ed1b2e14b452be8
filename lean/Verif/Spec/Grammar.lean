import Verif.Spec.Parse
import Verif.Py.Float

/-
What it means that the library reads a kind of group as its grammar says.
-/

namespace Verif.Spec

variable {γ α : Type}

/-- The float that is the whole number `n`. -/
def whole (n : Nat) : F64 := ⟨(n : Rat), false⟩

/-- A kind of group: the well-formed groups, how they are written, and which values of the library
state the same. -/
structure Grammar (γ α : Type) where
  WF : γ → Prop
  text : γ → PyStr
  Says : γ → α → Prop

/-- The pattern accepts every well-formed group and the reading has the stated values; a newline-free
text that is not a well-formed group is not accepted. -/
def Reads (G : Grammar γ α) (re : RE) (f : Match → Except Exc α) : Prop :=
  (∀ w, G.WF w → ∃ m x, re.match (G.text w) = some m ∧ f m = .ok x ∧ G.Says w x) ∧
    ∀ s m, re.match s = some m → 10 ∉ s → ∃ w, G.WF w ∧ s = G.text w

/-- The same for a reading that may fail. -/
def ReadsIfOk (G : Grammar γ α) (re : RE) (f : Match → Except Exc α) : Prop :=
  (∀ w, G.WF w → ∃ m, re.match (G.text w) = some m ∧ ∀ x, f m = .ok x → G.Says w x) ∧
    ∀ s m, re.match s = some m → 10 ∉ s → ∃ w, G.WF w ∧ s = G.text w

/-- The attribute `x` says what the group decoded at position `i` states; without such a group it is
`d`. -/
structure ReadAt (c : List (PyStr × Nat)) (i : Nat) (G : Grammar γ α) (d x : α) : Prop where
  form : ∀ g, (g, i) ∈ c → ∃ w, G.WF w ∧ g = G.text w
  value : ∀ w, G.WF w → (G.text w, i) ∈ c → G.Says w x
  absent : (∀ g, (g, i) ∉ c) → x = d

/-- `x` says what the text `g` states. -/
def SaysText (G : Grammar γ α) (g : PyStr) (x : α) : Prop :=
  (∃ w, G.WF w ∧ g = G.text w) ∧ ∀ w, G.WF w → g = G.text w → G.Says w x

/-- The members of the list say, in order, what the groups decoded at the positions `lo..hi` state. -/
def ReadAll (c : List (PyStr × Nat)) (lo hi : Nat) (G : Grammar γ α) (xs : List α) : Prop :=
  Each (SaysText G) (taken c lo hi) xs

/-- The attribute `x` says what the last group decoded at the positions `lo..hi` states. -/
def ReadLast (c : List (PyStr × Nat)) (lo hi : Nat) (G : Grammar γ α) (d x : α) : Prop :=
  (∀ g, (taken c lo hi).getLast? = some g → SaysText G g x) ∧ (taken c lo hi = [] → x = d)

end Verif.Spec
