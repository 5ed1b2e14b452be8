import Verif.Lemmas.Json
import Verif.Lemmas.Report
import Verif.Lemmas.Chars
import Verif.Spec.Json

/-
What the strings and numbers in the dictionaries of groups are made of.
-/

namespace Verif
open Spec

/-! ### Doubles -/

theorem double_mk (q : Rat) (sg : Bool) : Double (F64.mk' q sg) := by
  refine ⟨rnd_idem q, ?_⟩
  simp only [F64.mk', Bool.and_eq_true, decide_eq_true_eq]
  exact fun h => h.1

/-- The number, if there is one, is a double. -/
def IsDouble (v : Option F64) : Prop := ∀ x, v = some x → Double x

theorem IsDouble.none : IsDouble none := by intro x h; cases h
theorem IsDouble.some {x : F64} (h : Double x) : IsDouble (some x) := by intro y e; cases e; exact h

theorem floatOf_double (s : PyStr) : IsDouble (floatOf s) := by
  intro x h
  unfold floatOf at h
  split at h
  · cases hd : decOf _ with
    | none => rw [hd] at h; cases h
    | some q => rw [hd] at h; cases h; exact double_mk _ _
  · cases hd : decOf _ with
    | none => rw [hd] at h; cases h
    | some q => rw [hd] at h; cases h; exact double_mk _ _

theorem pyFloat_double {o : Option PyStr} {x : F64} (h : pyFloat o = .ok x) : Double x := by
  unfold pyFloat at h
  split at h
  · cases h
  · next s =>
    split at h
    · next y hy => cases h; exact floatOf_double s _ hy
    · cases h

theorem distance_double (o : Option PyStr) : IsDouble (distance o) := by
  cases o with
  | none => exact floatOf_double py!"////"
  | some s => exact floatOf_double _

theorem pressure_double (o : Option PyStr) : IsDouble (pressure o) := by
  cases o with
  | none => exact floatOf_double py!"////"
  | some s => exact floatOf_double _

theorem guard_ok {α : Type} {c : Prop} [Decidable c] {e : Exc} {x : Except Exc α} {v : α}
    (h : (if c then .error e else x) = .ok v) : x = .ok v := by
  split at h
  · cases h
  · exact h

theorem temperature_double {o : Option PyStr} {v : Option F64} (h : temperature o = .ok v) : IsDouble v := by
  unfold temperature at h
  have h := guard_ok h
  cases h
  intro x hx
  obtain ⟨y, -, rfl⟩ := Option.map_eq_some_iff.1 hx
  exact double_mk _ _

theorem speed_double {o : Option PyStr} {v : Option F64} (h : speed o = .ok v) : IsDouble v := by
  unfold speed at h
  have h := guard_ok h
  cases h
  exact floatOf_double _

theorem direction_double {o : Option PyStr} {d : Direction} (h : Direction.new o = .ok d) : IsDouble d.value := by
  unfold Direction.new at h
  have h := guard_ok h
  cases hf : floatOf _ with
  | none => rw [hf] at h; cases h; exact .none
  | some x => rw [hf] at h; cases h; exact .some (floatOf_double _ _ hf)

/-! ### Dictionaries -/

variable {P : Nat → Prop}

/-- The string, if there is one, consists of characters that satisfy `P`. -/
def TextOf (P : Nat → Prop) (o : Option PyStr) : Prop := ∀ s, o = some s → ∀ c ∈ s, P c

theorem TextOf.none : TextOf P none := by intro s h; cases h
theorem TextOf.some {s : PyStr} (h : ∀ c ∈ s, P c) : TextOf P (some s) := by intro t e; cases e; exact h

theorem made_text {o : Option PyStr} (h : TextOf P o) : Made P (.ofStr o) := by
  cases o with
  | none => exact .none
  | some s => exact .str (h s rfl)

theorem made_number {o : Option F64} (h : IsDouble o) : Made P (.ofFloat o) := by
  cases o with
  | none => exact .none
  | some s => exact .float (h s rfl)

/-- The entries of a dictionary. -/
def Entries (P : Nat → Prop) (d : List (PyStr × PyVal)) : Prop := ∀ kv ∈ d, (∀ c ∈ kv.1, P c) ∧ Made P kv.2

theorem Entries.nil : Entries P [] := by intro kv h; cases h

theorem Entries.cons {k : PyStr} {v : PyVal} {d : List (PyStr × PyVal)} (hk : ∀ c ∈ k, P c) (hv : Made P v)
    (hd : Entries P d) : Entries P ((k, v) :: d) := by
  intro kv h
  rcases List.mem_cons.1 h with rfl | h
  · exact ⟨hk, hv⟩
  · exact hd kv h

theorem Entries.made {d : List (PyStr × PyVal)} (h : Entries P d) : Made P (.dict d) :=
  .dict (fun kv hkv => (h kv hkv).1) fun kv hkv => (h kv hkv).2

theorem Entries.set {d : List (PyStr × PyVal)} {k : PyStr} {v : PyVal} (hd : Entries P d) (hk : ∀ c ∈ k, P c)
    (hv : Made P v) : Entries P (dset d k v) := by
  induction d with
  | nil => exact .cons hk hv .nil
  | cons x d ih =>
    obtain ⟨k', v'⟩ := x
    unfold dset
    have ht : Entries P d := fun kv h => hd kv (List.mem_cons_of_mem _ h)
    split
    · exact .cons hk hv ht
    · exact .cons (hd (k', v') (by simp)).1 (hd (k', v') (by simp)).2 (ih ht)

theorem Entries.update {d e : List (PyStr × PyVal)} (hd : Entries P d) (he : Entries P e) : Entries P (dupdate d e) := by
  unfold dupdate
  induction e generalizing d with
  | nil => exact hd
  | cons x e ih =>
    exact ih (hd.set (he x (by simp)).1 (he x (by simp)).2) fun kv h => he kv (List.mem_cons_of_mem _ h)

/-- The ASCII characters satisfy the predicate. -/
abbrev Ascii (P : Nat → Prop) : Prop := ∀ c, c < 128 → P c

theorem Ascii.lit (hP : Ascii P) {s : PyStr} (h : s.all (· < 128) = true) : ∀ c ∈ s, P c := fun c hc =>
  hP c (by simpa using List.all_eq_true.1 h c hc)

theorem Ascii.digits (hP : Ascii P) {s : PyStr} (h : ∀ c ∈ s, ascii.mem c = true) : ∀ c ∈ s, P c := fun c hc =>
  hP c (by have := ascii_range h c hc; omega)

theorem text_append {s t : PyStr} (hs : ∀ c ∈ s, P c) (ht : ∀ c ∈ t, P c) : ∀ c ∈ s ++ t, P c := by
  intro c hc
  rcases List.mem_append.1 hc with h | h
  · exact hs c h
  · exact ht c h

/-- A table of ASCII texts. -/
theorem Ascii.table (hP : Ascii P) {t : List (PyStr × PyStr)} (h : t.all (fun x => x.2.all (· < 128)) = true)
    (o : Option PyStr) : TextOf P (dgetO t o) := by
  cases o with
  | none => exact .none
  | some k =>
    intro s hs
    have : ∃ k', (k', s) ∈ t := by
      clear h
      simp only [dgetO, dget] at hs
      induction t with
      | nil => cases hs
      | cons x t ih =>
        obtain ⟨a, b⟩ := x
        rw [List.lookup_cons] at hs
        split at hs
        · cases hs; exact ⟨a, by simp⟩
        · obtain ⟨k', hk⟩ := ih hs
          exact ⟨k', List.mem_cons_of_mem _ hk⟩
    obtain ⟨k', hk⟩ := this
    exact hP.lit (List.all_eq_true.1 h _ hk)

/-! ### The pieces of a text -/

/-- The characters of one text are characters of another one or ASCII. -/
theorem text_of_not_mem {s t : PyStr} (hP : Ascii P) (hs : ∀ c ∈ s, P c)
    (h : ∀ x, 128 ≤ x → x ∉ s → x ∉ t) : ∀ c ∈ t, P c := by
  intro c hc
  by_cases h1 : c < 128
  · exact hP c h1
  · by_cases h2 : c ∈ s
    · exact hs c h2
    · exact absurd hc (h c (by omega) h2)

theorem not_mem_lit {s : PyStr} (h : s.all (· < 128) = true) {x : Nat} (hx : 128 ≤ x) : x ∉ s := by
  intro hm
  have := List.all_eq_true.1 h x hm
  simp only [decide_eq_true_eq] at this
  omega

theorem text_replace (hP : Ascii P) {s old new : PyStr} (ho : old ≠ []) (hs : ∀ c ∈ s, P c)
    (hn : new.all (· < 128) = true) : ∀ c ∈ replace s old new, P c :=
  text_of_not_mem hP hs fun _ hx h => not_mem_replace ho h (not_mem_lit hn hx)

theorem text_code (hP : Ascii P) {s : PyStr} (hs : ∀ c ∈ s, P c) : TextOf P (groupCode (some s)) :=
  .some (text_replace hP (by decide) hs rfl)

theorem text_group {m : Match} (hs : ∀ c ∈ m.string, P c) (n : Cap) : TextOf P (m.group n) := by
  intro s h c hc
  unfold Match.group at h
  cases hl : m.caps.lookup n with
  | none => rw [hl] at h; cases h
  | some ab =>
    rw [hl] at h
    cases h
    exact hs c (List.mem_of_mem_drop (List.mem_of_mem_take hc))

theorem text_fmt (hP : Ascii P) {o : Option PyStr} (h : TextOf P o) : ∀ c ∈ fmtO o, P c := by
  cases o with
  | none => exact hP.lit rfl
  | some s => exact h s rfl

end Verif
