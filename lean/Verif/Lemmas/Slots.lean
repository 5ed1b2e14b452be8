import Verif.Lemmas.Exact

/-
Patterns that are sequences of parts: the texts of each part and what it captures.
-/

namespace Verif

/-- A part of a pattern: the shapes of its text, each with the capture it is stored in, and all
captures of the part. -/
structure Slot where
  alts : List (List CC × Option Cap)
  caps : List Cap

/-- The captures of the part number `i` when `a` is the capture used. -/
def slotCaps (i : Nat) (caps : List Cap) (a : Option Cap) : List (Cap × Option Nat) :=
  caps.map fun c => (c, if a = some c then some i else none)

/-- The forms of a sequence of parts, numbered from `i`. -/
def slotForms : Nat → List Slot → List Form
  | _, [] => [([], [])]
  | i, s :: ss => s.alts.flatMap fun a => (slotForms (i + 1) ss).map fun f =>
      (a.1 :: f.1, slotCaps i s.caps a.2 ++ f.2)

/-- The forms of a sequence of parts, with the captures of other parts of the pattern absent. -/
def seqForms (ss : List Slot) (absent : List Cap) : List Form :=
  (slotForms 0 ss).map fun f => (f.1, f.2 ++ absent.map fun c => (c, none))

/-- The texts of the parts and the captures they are stored in. -/
def Chosen : List Slot → List PyStr → List (Option Cap) → Prop
  | [], [], [] => True
  | s :: ss, t :: ts, o :: os => (∃ a ∈ s.alts, HasShape a.1 t ∧ o = a.2) ∧ Chosen ss ts os
  | _, _, _ => False

/-- The match has the captures. -/
def HasCaps (m : Match) : List Slot → List PyStr → List (Option Cap) → Prop
  | s :: ss, t :: ts, o :: os =>
    (∀ c ∈ s.caps, m.group c = if o = some c then some t else none) ∧ HasCaps m ss ts os
  | _, _, _ => True

theorem slotForms_mem (i : Nat) {ss : List Slot} {ts : List PyStr} {os : List (Option Cap)}
    (h : Chosen ss ts os) : ∃ f ∈ slotForms i ss, Shapes f.1 ts ∧
      ∀ (pre : List PyStr) (m : Match), pre.length = i →
        (∀ co ∈ f.2, m.group co.1 = co.2.map fun i => ((pre ++ ts)[i]?).getD []) → HasCaps m ss ts os := by
  induction ss generalizing i ts os with
  | nil =>
    cases ts with
    | nil => exact ⟨([], []), by simp [slotForms], trivial, fun _ _ _ _ => by cases os <;> trivial⟩
    | cons t ts => cases os <;> exact h.elim
  | cons s ss ih =>
    cases ts with
    | nil => cases os <;> exact h.elim
    | cons t ts =>
      cases os with
      | nil => exact h.elim
      | cons o os =>
        obtain ⟨⟨a, ha, hs, ho⟩, h⟩ := h
        obtain ⟨f, hf, h1, h2⟩ := ih (i + 1) h
        refine ⟨_, List.mem_flatMap.2 ⟨a, ha, List.mem_map.2 ⟨f, hf, rfl⟩⟩, ⟨hs, h1⟩, ?_⟩
        intro pre m hp hm
        have hsub : ∀ co ∈ f.2, m.group co.1 = co.2.map fun i => ((pre ++ t :: ts)[i]?).getD [] := by
          intro co hco
          exact hm co (List.mem_append_right _ hco)
        refine ⟨fun c hc => ?_, h2 (pre ++ [t]) m (by simp [hp]) (by simpa using hsub)⟩
        have := hm (c, if a.2 = some c then some i else none)
          (List.mem_append_left _ (List.mem_map.2 ⟨c, hc, rfl⟩))
        rw [this, ho]
        subst hp
        simp only
        split <;> simp

theorem slotForms_inv (i : Nat) {ss : List Slot} {f : Form} (hf : f ∈ slotForms i ss)
    {ts : List PyStr} (hs : Shapes f.1 ts) : ∃ os, Chosen ss ts os ∧
      ∀ (pre : List PyStr) (m : Match), pre.length = i →
        (∀ co ∈ f.2, m.group co.1 = co.2.map fun i => ((pre ++ ts)[i]?).getD []) → HasCaps m ss ts os := by
  induction ss generalizing i ts f with
  | nil =>
    simp only [slotForms, List.mem_singleton] at hf
    subst hf
    cases hs.nil_inv
    exact ⟨[], trivial, fun _ _ _ _ => trivial⟩
  | cons s ss ih =>
    simp only [slotForms, List.mem_flatMap, List.mem_map] at hf
    obtain ⟨a, ha, g, hg, rfl⟩ := hf
    obtain ⟨t, ts, rfl, h1, hs⟩ := hs.cons_inv
    obtain ⟨os, h2, h3⟩ := ih (i + 1) hg hs
    refine ⟨a.2 :: os, ⟨⟨a, ha, h1, rfl⟩, h2⟩, ?_⟩
    intro pre m hp hm
    have hsub : ∀ co ∈ g.2, m.group co.1 = co.2.map fun i => ((pre ++ t :: ts)[i]?).getD [] := by
      intro co hco
      exact hm co (List.mem_append_right _ hco)
    refine ⟨fun c hc => ?_, h3 (pre ++ [t]) m (by simp [hp]) (by simpa using hsub)⟩
    have := hm (c, if a.2 = some c then some i else none)
      (List.mem_append_left _ (List.mem_map.2 ⟨c, hc, rfl⟩))
    rw [this]
    subst hp
    simp only
    split <;> simp

theorem seqForms_mem {ss : List Slot} {absent : List Cap} {ts : List PyStr}
    {os : List (Option Cap)} (h : Chosen ss ts os) :
    ∃ f ∈ seqForms ss absent, Shapes f.1 ts ∧ ∀ m : Match,
      (∀ co ∈ f.2, m.group co.1 = co.2.map fun i => (ts[i]?).getD []) →
      HasCaps m ss ts os ∧ ∀ c ∈ absent, m.group c = none := by
  obtain ⟨f, hf, h1, h2⟩ := slotForms_mem 0 h
  refine ⟨_, List.mem_map.2 ⟨f, hf, rfl⟩, h1, fun m hm => ⟨h2 [] m rfl fun co hco => ?_, fun c hc => ?_⟩⟩
  · exact hm co (List.mem_append_left _ hco)
  · exact hm (c, none) (List.mem_append_right _ (List.mem_map.2 ⟨c, hc, rfl⟩))

theorem seqForms_inv {ss : List Slot} {absent : List Cap} {f : Form} (hf : f ∈ seqForms ss absent)
    {ts : List PyStr} (hs : Shapes f.1 ts) : ∃ os, Chosen ss ts os ∧ ∀ m : Match,
      (∀ co ∈ f.2, m.group co.1 = co.2.map fun i => (ts[i]?).getD []) →
      HasCaps m ss ts os ∧ ∀ c ∈ absent, m.group c = none := by
  obtain ⟨g, hg, rfl⟩ := List.mem_map.1 hf
  obtain ⟨os, h1, h2⟩ := slotForms_inv 0 hg hs
  refine ⟨os, h1, fun m hm => ⟨h2 [] m rfl fun co hco => ?_, fun c hc => ?_⟩⟩
  · exact hm co (List.mem_append_left _ hco)
  · exact hm (c, none) (List.mem_append_right _ (List.mem_map.2 ⟨c, hc, rfl⟩))

/-- The forms of a pattern that is one of several sequences. -/
def altForms (ps : List (List Slot × List Cap)) : List Form := ps.flatMap fun p => seqForms p.1 p.2

theorem RE.alt_match {r : RE} {ps : List (List Slot × List Cap)} (h : r.exact (altForms ps) = true)
    {p : List Slot × List Cap} (hp : p ∈ ps) {ts : List PyStr} {os : List (Option Cap)}
    (hc : Chosen p.1 ts os) : ∃ m, r.match ts.flatten = some m ∧ m.string = ts.flatten ∧
      HasCaps m p.1 ts os ∧ ∀ c ∈ p.2, m.group c = none := by
  obtain ⟨f, hf, h1, h2⟩ := seqForms_mem (absent := p.2) hc
  obtain ⟨m, e1, e2, e3⟩ := RE.exact_match h (List.mem_flatMap.2 ⟨p, hp, hf⟩) h1
  exact ⟨m, e1, e2, h2 m e3⟩

theorem RE.alt_only {r : RE} {ps : List (List Slot × List Cap)} (h : r.exact (altForms ps) = true)
    {s : PyStr} {m : Match} (hm : r.match s = some m) (hn : 10 ∉ s) :
    ∃ p ∈ ps, ∃ ts os, Chosen p.1 ts os ∧ s = ts.flatten := by
  obtain ⟨f, hf, ts, hs, e⟩ := RE.exact_only h hm hn
  obtain ⟨p, hp, hf⟩ := List.mem_flatMap.1 hf
  obtain ⟨os, h1, -⟩ := seqForms_inv hf hs
  exact ⟨p, hp, ts, os, h1, e⟩

theorem RE.alt_begin_match {r : RE} {ps : List (List Slot × List Cap)}
    (h : r.begins (altForms ps) = true) {p : List Slot × List Cap} (hp : p ∈ ps) {ts : List PyStr}
    {os : List (Option Cap)} (hc : Chosen p.1 ts os) :
    ∃ m, r.match ts.flatten = some m ∧ m.string = ts.flatten ∧
      HasCaps m p.1 ts os ∧ ∀ c ∈ p.2, m.group c = none := by
  obtain ⟨f, hf, h1, h2⟩ := seqForms_mem (absent := p.2) hc
  obtain ⟨m, e1, e2, e3⟩ := RE.begins_match h (List.mem_flatMap.2 ⟨p, hp, hf⟩) h1
  exact ⟨m, e1, e2, h2 m e3⟩

theorem RE.alt_begin_only {r : RE} {ps : List (List Slot × List Cap)}
    (h : r.begins (altForms ps) = true) {s : PyStr} {m : Match} (hm : r.match s = some m) :
    ∃ p ∈ ps, ∃ ts os rest, Chosen p.1 ts os ∧ s = ts.flatten ++ rest ∧
      HasCaps m p.1 ts os ∧ ∀ c ∈ p.2, m.group c = none := by
  obtain ⟨f, hf, ts, rest, hs, e, hg⟩ := RE.begins_only h hm
  obtain ⟨p, hp, hf⟩ := List.mem_flatMap.1 hf
  obtain ⟨os, h1, h2⟩ := seqForms_inv hf hs
  exact ⟨p, hp, ts, os, rest, h1, e, h2 m hg⟩

/-! ### Usual parts -/

/-- The part has the text `t` and is stored in the capture `o`. -/
def Slot.Has (s : Slot) (t : PyStr) (o : Option Cap) : Prop := ∃ a ∈ s.alts, HasShape a.1 t ∧ o = a.2

theorem Chosen.cons {s : Slot} {t : PyStr} {o : Option Cap} (h : s.Has t o) {ss : List Slot}
    {ts : List PyStr} {os : List (Option Cap)} (h' : Chosen ss ts os) :
    Chosen (s :: ss) (t :: ts) (o :: os) := ⟨h, h'⟩

theorem Chosen.nil : Chosen [] [] [] := trivial

theorem Chosen.nil_inv {ts : List PyStr} {os : List (Option Cap)} (h : Chosen [] ts os) :
    ts = [] ∧ os = [] := by
  cases ts <;> cases os <;> first | exact ⟨rfl, rfl⟩ | exact h.elim

theorem Chosen.cons_inv {s : Slot} {ss : List Slot} {ts : List PyStr} {os : List (Option Cap)}
    (h : Chosen (s :: ss) ts os) : ∃ t ts' o os', ts = t :: ts' ∧ os = o :: os' ∧
      s.Has t o ∧ Chosen ss ts' os' := by
  cases ts with
  | nil => cases os <;> exact h.elim
  | cons t ts =>
    cases os with
    | nil => exact h.elim
    | cons o os => exact ⟨t, ts, o, os, rfl, rfl, h.1, h.2⟩

/-- A fixed text. -/
def Slot.lit (s : PyStr) : Slot := ⟨[(litShape s, none)], []⟩
/-- One of some texts, captured, or nothing. -/
def Slot.opt (ws : List PyStr) (c : Cap) : Slot :=
  ⟨(ws.map fun w => (litShape w, some c)) ++ [([], none)], [c]⟩
/-- Some digits or one of some texts, captured. -/
def Slot.digits (ns : List Nat) (ws : List PyStr) (c : Cap) : Slot :=
  ⟨(ns.map fun n => (List.replicate n .digit, some c)) ++ ws.map fun w => (litShape w, some c), [c]⟩

theorem Slot.lit_has {s t : PyStr} {o : Option Cap} : (Slot.lit s).Has t o ↔ t = s ∧ o = none := by
  constructor
  · rintro ⟨a, ha, hs, ho⟩
    simp only [Slot.lit, List.mem_singleton] at ha
    subst ha
    exact ⟨hasShape_lit_iff.1 hs, ho⟩
  · rintro ⟨rfl, rfl⟩
    exact ⟨(litShape t, none), by simp [Slot.lit], hasShape_lit t, rfl⟩

theorem Slot.opt_has {ws : List PyStr} {c : Cap} {t : PyStr} {o : Option Cap} :
    (Slot.opt ws c).Has t o ↔ (t ∈ ws ∧ o = some c) ∨ (t = [] ∧ o = none) := by
  constructor
  · rintro ⟨a, ha, hs, ho⟩
    simp only [Slot.opt, List.mem_append, List.mem_map, List.mem_singleton] at ha
    rcases ha with ⟨w, hw, rfl⟩ | rfl
    · rw [hasShape_lit_iff.1 hs]
      exact .inl ⟨hw, ho⟩
    · exact .inr ⟨hs, ho⟩
  · rintro (⟨h, rfl⟩ | ⟨rfl, rfl⟩)
    · exact ⟨(litShape t, some c), by simp only [Slot.opt, List.mem_append, List.mem_map]; exact .inl ⟨t, h, rfl⟩,
        hasShape_lit t, rfl⟩
    · exact ⟨([], none), by simp [Slot.opt], rfl, rfl⟩

theorem Slot.digits_has {ns : List Nat} {ws : List PyStr} {c : Cap} {t : PyStr} {o : Option Cap} :
    (Slot.digits ns ws c).Has t o ↔ ((t.length ∈ ns ∧ Digits t) ∨ t ∈ ws) ∧ o = some c := by
  constructor
  · rintro ⟨a, ha, hs, ho⟩
    simp only [Slot.digits, List.mem_append, List.mem_map] at ha
    rcases ha with ⟨n, hn, rfl⟩ | ⟨w, hw, rfl⟩
    · obtain ⟨h1, h2⟩ := hs.digits
      exact ⟨.inl ⟨h2 ▸ hn, h1⟩, ho⟩
    · rw [hasShape_lit_iff.1 hs]
      exact ⟨.inr hw, ho⟩
  · rintro ⟨⟨h1, h2⟩ | h, rfl⟩
    · exact ⟨(List.replicate t.length .digit, some c),
        by simp only [Slot.digits, List.mem_append, List.mem_map]; exact .inl ⟨_, h1, rfl⟩,
        hasShape_digits h2 rfl, rfl⟩
    · exact ⟨(litShape t, some c),
        by simp only [Slot.digits, List.mem_append, List.mem_map]; exact .inr ⟨t, h, rfl⟩,
        hasShape_lit t, rfl⟩

end Verif
