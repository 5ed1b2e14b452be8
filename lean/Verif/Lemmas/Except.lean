import Verif.Py.Exc

/-
Reasoning about computations that may raise.
-/

namespace Verif

variable {α β : Type}

theorem bind_ok {x : Except Exc α} {f : α → Except Exc β} {b : β} :
    (x >>= f) = .ok b ↔ ∃ a, x = .ok a ∧ f a = .ok b := by
  cases x <;> simp [bind, Except.bind]

theorem bind_error {x : Except Exc α} {f : α → Except Exc β} {e : Exc} :
    (x >>= f) = .error e ↔ x = .error e ∨ ∃ a, x = .ok a ∧ f a = .error e := by
  cases x <;> simp [bind, Except.bind]

theorem pure_ok {a b : α} : (pure a : Except Exc α) = .ok b ↔ a = b := by
  simp [pure, Except.pure]

theorem ok_bind (a : α) (f : α → Except Exc β) : (Except.ok a >>= f) = f a := rfl

theorem error_bind (e : Exc) (f : α → Except Exc β) : (Except.error e >>= f) = .error e := rfl

theorem throw_eq (e : Exc) : (throw e : Except Exc α) = .error e := rfl

/-- Every exception `x` raises satisfies `P`. -/
def Raises (P : Exc → Prop) (x : Except Exc α) : Prop := ∀ e, x = .error e → P e

theorem Raises.ok {P : Exc → Prop} (a : α) : Raises P (.ok a : Except Exc α) := by
  intro e h; cases h

theorem Raises.pure {P : Exc → Prop} (a : α) : Raises P (pure a : Except Exc α) := Raises.ok a

theorem Raises.error {P : Exc → Prop} {e : Exc} (h : P e) : Raises P (.error e : Except Exc α) := by
  intro e' h'; cases h'; exact h

theorem Raises.throw {P : Exc → Prop} {e : Exc} (h : P e) :
    Raises P (throw e : Except Exc α) := Raises.error h

theorem Raises.bind {P : Exc → Prop} {x : Except Exc α} {f : α → Except Exc β}
    (hx : Raises P x) (hf : ∀ a, x = .ok a → Raises P (f a)) : Raises P (x >>= f) := by
  intro e h
  rcases bind_error.1 h with h | ⟨a, h1, h2⟩
  · exact hx e h
  · exact hf a h1 e h2

theorem Raises.mono {P Q : Exc → Prop} {x : Except Exc α} (h : Raises P x) (hpq : ∀ e, P e → Q e) :
    Raises Q x := fun e he => hpq e (h e he)

instance {ε α : Type} [DecidableEq ε] [DecidableEq α] : DecidableEq (Except ε α)
  | .ok a, .ok b => if h : a = b then isTrue (by rw [h]) else isFalse (by simpa using h)
  | .error a, .error b => if h : a = b then isTrue (by rw [h]) else isFalse (by simpa using h)
  | .ok _, .error _ => isFalse (by simp)
  | .error _, .ok _ => isFalse (by simp)

end Verif
