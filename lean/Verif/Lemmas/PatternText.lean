import Verif.Spec.PatternText

/-
A reader for pattern texts that is complete for the grammar of `Spec/PatternText.lean`, so a text
has one syntax tree at most.
-/

namespace Verif
open Spec

namespace PatternRead

def items : PyStr → Option (List (Nat × Option Nat) × PyStr)
  | [] => none
  | a :: t =>
    if a = 93 then some ([], t)
    else
      match t with
      | 45 :: b :: t => (items t).map fun x => ((a, some b) :: x.1, x.2)
      | t => (items t).map fun x => ((a, none) :: x.1, x.2)

def one : PyStr → Option (One × PyStr)
  | [] => none
  | c :: t =>
    if c = 92 then
      match t with
      | d :: t => some (.esc d, t)
      | [] => none
    else if c = 91 then (items t).map fun x => (.cls x.1, x.2)
    else if special.contains c then none
    else some (.plain c, t)

def quant (a : Syn) (t : PyStr) : Option (Syn × PyStr) :=
  match t with
  | 63 :: t => some (.opt a, t)
  | 43 :: t => match a with
    | .one o => some (.plus o, t)
    | _ => none
  | 123 :: m :: t => match a with
    | .one o => match t with
      | 125 :: t => some (.times o (m - 48), t)
      | 44 :: 125 :: t => some (.atLeast o (m - 48), t)
      | 44 :: n :: 125 :: t => some (.between o (m - 48) (n - 48), t)
      | _ => none
    | _ => none
  | t => some (a, t)

def caps : List Cap :=
  [.type, .station, .day, .hour, .min, .minute, .mod, .dir, .speed, .gust, .units, .units2, .from_,
   .to, .vis, .integer, .fraction, .cavok, .name, .rvrlow, .low, .rvrhigh, .high, .trend, .int,
   .desc, .prec, .obsc, .other, .cover, .height, .tsign, .temp, .dsign, .dewpt, .press, .all,
   .sign, .state, .deposit, .cont, .depth, .fric, .snoclo, .clrd, .prefix, .rmk, .fmday, .fmhour,
   .tlday, .tlhour, .percent, .frac, .sY, .sm, .sd, .sH, .sM]

def name (t : PyStr) : Option (Cap × PyStr) :=
  (caps.find? fun n => capText n == t.takeWhile (· != 62)).map fun n =>
    (n, (t.dropWhile (· != 62)).drop 1)

def stops : PyStr → Bool
  | [] => true
  | c :: _ => c == 124 || c == 41

def close : Option (Syn × PyStr) → Option (Syn × PyStr)
  | some (a, 41 :: t) => some (a, t)
  | _ => none

mutual
def alts : Nat → PyStr → Option (Syn × PyStr)
  | 0, _ => none
  | f + 1, t =>
    match row f t with
    | some (a, 124 :: u) => (alts f u).map fun x => (.bar a x.1, x.2)
    | x => x

def row : Nat → PyStr → Option (Syn × PyStr)
  | 0, _ => none
  | f + 1, t =>
    if stops t then some (.empty, t)
    else
      match piece f t with
      | some (a, u) => if stops u then some (a, u) else (row f u).map fun x => (.cat a x.1, x.2)
      | none => none

def piece : Nat → PyStr → Option (Syn × PyStr)
  | 0, _ => none
  | f + 1, t =>
    match t with
    | 94 :: t => quant .caret t
    | 36 :: t => quant .dollar t
    | 40 :: 63 :: 80 :: 60 :: t =>
      match name t with
      | some (n, t) => (close (alts f t)).bind fun x => quant (.named n x.1) x.2
      | none => none
    | 40 :: t => (close (alts f t)).bind fun x => quant (.group x.1) x.2
    | t => (one t).bind fun x => quant (.one x.1) x.2
end

theorem items_complete (l : List (Nat × Option Nat)) (rest : PyStr)
    (h : l.all (fun i => inBrackets i.1 && i.2.all fun b => inBrackets b && decide (i.1 ≤ b)) = true) :
    items (l.flatMap itemText ++ 93 :: rest) = some (l, rest) := by
  induction l with
  | nil =>
    show items (93 :: rest) = _
    unfold items
    simp
  | cons i l ih =>
    obtain ⟨a, b⟩ := i
    simp only [List.all_cons, Bool.and_eq_true] at h
    obtain ⟨⟨ha, hb⟩, hl⟩ := h
    have ha' : a ≠ 93 := by rintro rfl; revert ha; decide
    have ih := ih hl
    cases b with
    | some b =>
      simp only [List.flatMap_cons, itemText, List.cons_append, List.nil_append]
      rw [items, if_neg ha']
      simp [ih]
    | none =>
      simp only [List.flatMap_cons, itemText, List.cons_append, List.nil_append]
      have hne : ∀ b t, l.flatMap itemText ++ 93 :: rest = 45 :: b :: t → False := by
        intro b t e
        cases l with
        | nil => simp at e
        | cons j l =>
          obtain ⟨c, d⟩ := j
          simp only [List.all_cons, Bool.and_eq_true] at hl
          have hc := hl.1.1
          have : c = 45 := by
            cases d <;> simp [itemText] at e <;> exact e.1
          subst this
          revert hc; decide
      rw [items, if_neg ha']
      · rw [ih]; rfl
      · exact hne

theorem one_complete (o : One) (rest : PyStr) (h : o.ok = true) :
    one (o.text ++ rest) = some (o, rest) := by
  cases o with
  | plain c =>
    simp only [One.ok, Bool.not_eq_true'] at h
    have h1 : c ≠ 92 := by rintro rfl; revert h; decide
    have h2 : c ≠ 91 := by rintro rfl; revert h; decide
    simp only [One.text, List.cons_append, List.nil_append, one, if_neg h1, if_neg h2, h]
    simp
  | esc c => simp [One.text, one]
  | cls l =>
    simp only [One.ok, Bool.and_eq_true] at h
    simp only [One.text, List.cons_append, List.nil_append, List.append_assoc, one]
    rw [if_neg (by decide), if_pos trivial, items_complete l rest h.2]
    rfl

/-- How a one-character pattern begins. -/
theorem one_head (o : One) (h : o.ok = true) :
    ∃ c t, o.text = c :: t ∧ (c = 92 ∨ c = 91 ∨ special.contains c = false) := by
  cases o with
  | plain c => exact ⟨c, [], rfl, .inr (.inr (by simpa [One.ok] using h))⟩
  | esc c => exact ⟨92, [c], rfl, .inl rfl⟩
  | cls l => exact ⟨91, l.flatMap itemText ++ [93], rfl, .inr (.inl rfl)⟩

/-- A text that does not go on with a quantifier, a bar or a closing parenthesis. -/
def Starts (t : PyStr) : Prop :=
  ∃ c u, t = c :: u ∧ c ≠ 63 ∧ c ≠ 43 ∧ c ≠ 123 ∧ c ≠ 124 ∧ c ≠ 41

theorem starts_append {t : PyStr} (h : Starts t) (u : PyStr) : Starts (t ++ u) := by
  obtain ⟨c, v, rfl, h⟩ := h
  exact ⟨c, v ++ u, rfl, h⟩

theorem one_starts (o : One) (h : o.ok = true) : Starts o.text := by
  obtain ⟨c, t, e, hc⟩ := one_head o h
  refine ⟨c, t, e, ?_⟩
  rcases hc with rfl | rfl | hc
  · decide
  · decide
  · refine ⟨?_, ?_, ?_, ?_, ?_⟩ <;> rintro rfl <;> revert hc <;> decide

theorem piece_starts (a : Syn) (h : a.ok = true) (hp : a.isPiece = true) : Starts a.text := by
  induction a with
  | one o => exact one_starts o h
  | caret => exact ⟨94, [], rfl, by decide⟩
  | dollar => exact ⟨36, [], rfl, by decide⟩
  | group a => exact ⟨40, a.text ++ [41], rfl, by decide⟩
  | named n a => exact ⟨40, py!"?P<" ++ capText n ++ py!">" ++ a.text ++ py!")", rfl, by decide⟩
  | opt a ih =>
    simp only [Syn.ok, Bool.and_eq_true] at h
    exact starts_append (ih h.2 (by cases a <;> simp_all [Syn.isAtom, Syn.isPiece])) _
  | plus o => exact starts_append (one_starts o h) _
  | times o m =>
    simp only [Syn.ok, Bool.and_eq_true] at h
    simp only [Syn.text, List.append_assoc]
    exact starts_append (one_starts o h.1) _
  | atLeast o m =>
    simp only [Syn.ok, Bool.and_eq_true] at h
    simp only [Syn.text, List.append_assoc]
    exact starts_append (one_starts o h.1) _
  | between o m n =>
    simp only [Syn.ok, Bool.and_eq_true] at h
    simp only [Syn.text, List.append_assoc]
    exact starts_append (one_starts o h.1.1.1) _
  | empty => simp [Syn.isPiece] at hp
  | cat a b => simp [Syn.isPiece] at hp
  | bar a b => simp [Syn.isPiece] at hp

/-- Not followed by a quantifier. -/
def Free : PyStr → Prop
  | [] => True
  | c :: _ => c ≠ 63 ∧ c ≠ 43 ∧ c ≠ 123

theorem free_of_starts {t : PyStr} (h : Starts t) : Free t := by
  obtain ⟨c, u, rfl, h⟩ := h
  exact ⟨h.1, h.2.1, h.2.2.1⟩

theorem free_of_stops {t : PyStr} (h : stops t = true) : Free t := by
  cases t with
  | nil => trivial
  | cons c t =>
    simp only [stops, Bool.or_eq_true, beq_iff_eq] at h
    rcases h with rfl | rfl
    · exact ⟨by decide, by decide, by decide⟩
    · exact ⟨by decide, by decide, by decide⟩

theorem not_stops {t : PyStr} (h : Starts t) : stops t = false := by
  obtain ⟨c, u, rfl, h⟩ := h
  simp [stops, h]

theorem quant_free {a : Syn} {t : PyStr} (h : Free t) : quant a t = some (a, t) := by
  cases t with
  | nil => rfl
  | cons c t =>
    obtain ⟨h1, h2, h3⟩ := h
    unfold quant
    split
    · rename_i e; simp at e; exact absurd e.1 h1
    · rename_i e; simp at e; exact absurd e.1 h2
    · rename_i e; simp at e; exact absurd e.1 h3
    · rfl

theorem name_complete (n : Cap) (t : PyStr) : name (capText n ++ 62 :: t) = some (n, t) := by
  cases n <;> rfl

/-- Fuel that is enough. -/
def size : Syn → Nat
  | .group a | .named _ a => size a + 3
  | .opt a => size a
  | .cat a b | .bar a b => size a + size b + 3
  | _ => 1

theorem ok_head (a : Syn) (h : a.ok = true) :
    a.text = [] ∨ ∃ c t, a.text = c :: t ∧ c ≠ 63 := by
  induction a with
  | empty => exact .inl rfl
  | cat a b =>
    simp only [Syn.ok, Bool.and_eq_true] at h
    obtain ⟨c, t, e, hc⟩ := piece_starts a h.1.1.2 h.1.1.1
    exact .inr ⟨c, t ++ b.text, by simp [Syn.text, e], hc.1⟩
  | bar a b iha _ =>
    simp only [Syn.ok, Bool.and_eq_true] at h
    rcases iha h.1.1 with e | ⟨c, t, e, hc⟩
    · exact .inr ⟨124, b.text, by simp [Syn.text, e], by decide⟩
    · exact .inr ⟨c, t ++ 124 :: b.text, by simp [Syn.text, e], hc⟩
  | _ =>
    obtain ⟨c, t, e, hc⟩ := piece_starts _ h rfl
    exact .inr ⟨c, t, e, hc.1⟩

theorem piece_one (f : Nat) (o : One) (rest : PyStr) (h : o.ok = true) :
    piece (f + 1) (o.text ++ rest) = quant (.one o) rest := by
  obtain ⟨c, t, e, hc⟩ := one_head o h
  have hne : c ≠ 94 ∧ c ≠ 36 ∧ c ≠ 40 := by
    rcases hc with rfl | rfl | hc
    · decide
    · decide
    · refine ⟨?_, ?_, ?_⟩ <;> rintro rfl <;> revert hc <;> decide
  have ho := one_complete o rest h
  rw [e, List.cons_append] at ho ⊢
  rw [piece]
  · rw [ho]; rfl
  all_goals
    intro u e
    simp only [List.cons.injEq] at e
    omega

/-- What the reader does with a grammatical text. -/
structure Complete (a : Syn) : Prop where
  atom : a.isAtom = true → ∀ f rest, size a ≤ f → piece f (a.text ++ rest) = quant a rest
  piece : a.isPiece = true → ∀ f rest, size a ≤ f → Free rest →
    piece f (a.text ++ rest) = some (a, rest)
  row : (∀ b c, a ≠ .bar b c) → ∀ f rest, size a + 1 ≤ f → stops rest = true →
    row f (a.text ++ rest) = some (a, rest)
  alts : ∀ f rest, size a + 2 ≤ f → (rest = [] ∨ ∃ t, rest = 41 :: t) →
    alts f (a.text ++ rest) = some (a, rest)

theorem Complete.ofRow {a : Syn}
    (hr : ∀ f rest, size a + 1 ≤ f → stops rest = true → PatternRead.row f (a.text ++ rest) = some (a, rest)) :
    ∀ f rest, size a + 2 ≤ f → (rest = [] ∨ ∃ t, rest = 41 :: t) →
      PatternRead.alts f (a.text ++ rest) = some (a, rest) := by
  intro f rest hf hrest
  obtain ⟨f, rfl⟩ : ∃ g, f = g + 1 := ⟨f - 1, by omega⟩
  rw [PatternRead.alts, hr f rest (by omega) (by rcases hrest with rfl | ⟨t, rfl⟩ <;> rfl)]
  rcases hrest with rfl | ⟨t, rfl⟩ <;> rfl

theorem Complete.ofPiece {a : Syn} (h : a.ok = true) (hp : a.isPiece = true)
    (hh : ∀ f rest, size a ≤ f → Free rest → PatternRead.piece f (a.text ++ rest) = some (a, rest))
    (ha : a.isAtom = true → ∀ f rest, size a ≤ f → PatternRead.piece f (a.text ++ rest) = quant a rest) :
    Complete a := by
  have hr : ∀ f rest, size a + 1 ≤ f → stops rest = true →
      PatternRead.row f (a.text ++ rest) = some (a, rest) := by
    intro f rest hf hs
    obtain ⟨f, rfl⟩ : ∃ g, f = g + 1 := ⟨f - 1, by omega⟩
    rw [PatternRead.row, not_stops (starts_append (piece_starts a h hp) rest),
      hh f rest (by omega) (free_of_stops hs)]
    simp [hs]
  exact ⟨ha, fun _ => hh, fun _ => hr, Complete.ofRow hr⟩

theorem Complete.ofAtom {a : Syn} (h : a.ok = true) (ht : a.isAtom = true)
    (ha : ∀ f rest, size a ≤ f → PatternRead.piece f (a.text ++ rest) = quant a rest) : Complete a :=
  Complete.ofPiece h (by cases a <;> simp_all [Syn.isAtom, Syn.isPiece])
    (fun f rest hf hr => by rw [ha f rest hf, quant_free hr]) (fun _ => ha)

theorem complete (a : Syn) (h : a.ok = true) : Complete a := by
  induction a with
  | one o =>
    refine Complete.ofAtom h rfl fun f rest hf => ?_
    obtain ⟨f, rfl⟩ : ∃ g, f = g + 1 := ⟨f - 1, by simp [size] at hf; omega⟩
    exact piece_one f o rest h
  | caret =>
    refine Complete.ofAtom h rfl fun f rest hf => ?_
    obtain ⟨f, rfl⟩ : ∃ g, f = g + 1 := ⟨f - 1, by simp [size] at hf; omega⟩
    rfl
  | dollar =>
    refine Complete.ofAtom h rfl fun f rest hf => ?_
    obtain ⟨f, rfl⟩ : ∃ g, f = g + 1 := ⟨f - 1, by simp [size] at hf; omega⟩
    rfl
  | group a ih =>
    refine Complete.ofAtom h rfl fun f rest hf => ?_
    simp only [size] at hf
    obtain ⟨f, rfl⟩ : ∃ g, f = g + 1 := ⟨f - 1, by omega⟩
    have hk := ok_head a h
    have ih := (ih h).alts f (41 :: rest) (by omega) (.inr ⟨rest, rfl⟩)
    simp only [Syn.text, List.append_assoc, List.cons_append, List.nil_append]
    rw [piece]
    · rw [ih]; rfl
    · intro t e
      rcases hk with hk | ⟨c, u, hk, hc⟩
      · rw [hk] at e; simp at e
      · rw [hk] at e; simp at e; exact hc e.1
  | named n a ih =>
    refine Complete.ofAtom h rfl fun f rest hf => ?_
    simp only [size] at hf
    obtain ⟨f, rfl⟩ : ∃ g, f = g + 1 := ⟨f - 1, by omega⟩
    have ih := (ih h).alts f (41 :: rest) (by omega) (.inr ⟨rest, rfl⟩)
    simp only [Syn.text, List.append_assoc, List.cons_append, List.nil_append]
    rw [piece]
    simp only [name_complete, ih]
    rfl
  | opt a ih =>
    have h' := h
    simp only [Syn.ok, Bool.and_eq_true] at h'
    refine Complete.ofPiece h rfl (fun f rest hf _ => ?_) (by simp [Syn.isAtom])
    simp only [Syn.text, List.append_assoc]
    rw [(ih h'.2).atom h'.1 f _ hf]; rfl
  | plus o =>
    refine Complete.ofPiece h rfl (fun f rest hf _ => ?_) (by simp [Syn.isAtom])
    obtain ⟨f, rfl⟩ : ∃ g, f = g + 1 := ⟨f - 1, by simp [size] at hf; omega⟩
    simp only [Syn.text, List.append_assoc]
    rw [piece_one f o _ h]; rfl
  | times o m =>
    have h' := h
    simp only [Syn.ok, Bool.and_eq_true] at h'
    refine Complete.ofPiece h rfl (fun f rest hf _ => ?_) (by simp [Syn.isAtom])
    obtain ⟨f, rfl⟩ : ∃ g, f = g + 1 := ⟨f - 1, by simp [size] at hf; omega⟩
    simp only [Syn.text, List.append_assoc]
    rw [piece_one f o _ h'.1]
    simp [quant]
  | atLeast o m =>
    have h' := h
    simp only [Syn.ok, Bool.and_eq_true] at h'
    refine Complete.ofPiece h rfl (fun f rest hf _ => ?_) (by simp [Syn.isAtom])
    obtain ⟨f, rfl⟩ : ∃ g, f = g + 1 := ⟨f - 1, by simp [size] at hf; omega⟩
    simp only [Syn.text, List.append_assoc]
    rw [piece_one f o _ h'.1]
    simp [quant]
  | between o m n =>
    have h' := h
    simp only [Syn.ok, Bool.and_eq_true] at h'
    refine Complete.ofPiece h rfl (fun f rest hf _ => ?_) (by simp [Syn.isAtom])
    obtain ⟨f, rfl⟩ : ∃ g, f = g + 1 := ⟨f - 1, by simp [size] at hf; omega⟩
    simp only [Syn.text, List.append_assoc]
    rw [piece_one f o _ h'.1.1.1]
    have hn : 48 + n ≠ 125 := by simp at h'; omega
    simp [quant]
  | empty =>
    have hr : ∀ f rest, size .empty + 1 ≤ f → stops rest = true →
        row f (Syn.empty.text ++ rest) = some (.empty, rest) := by
      intro f rest hf hs
      obtain ⟨f, rfl⟩ : ∃ g, f = g + 1 := ⟨f - 1, by omega⟩
      rw [row]; simp [Syn.text, hs]
    exact ⟨by simp [Syn.isAtom], by simp [Syn.isPiece], fun _ => hr, Complete.ofRow hr⟩
  | cat a b iha ihb =>
    simp only [Syn.ok, Bool.and_eq_true] at h
    obtain ⟨⟨⟨hp, ha⟩, hb⟩, hbb⟩ := h
    have hbs : Starts b.text := by
      cases b with
      | cat c d =>
        simp only [Syn.ok, Bool.and_eq_true] at hb
        exact starts_append (piece_starts c hb.1.1.2 hb.1.1.1) _
      | empty => simp [Syn.isPiece] at hbb
      | bar c d => simp [Syn.isPiece] at hbb
      | _ => exact piece_starts _ hb rfl
    have hbn : ∀ c d, b ≠ .bar c d := by rintro c d rfl; simp [Syn.isPiece] at hbb
    have hr : ∀ f rest, size (.cat a b) + 1 ≤ f → stops rest = true →
        row f ((Syn.cat a b).text ++ rest) = some (.cat a b, rest) := by
      intro f rest hf hs
      simp only [size] at hf
      obtain ⟨f, rfl⟩ : ∃ g, f = g + 1 := ⟨f - 1, by omega⟩
      simp only [Syn.text, List.append_assoc]
      rw [row, not_stops (starts_append (piece_starts a ha hp) _),
        (iha ha).piece hp f _ (by omega) (free_of_starts (starts_append hbs _))]
      simp only [Bool.false_eq_true, if_false]
      rw [not_stops (starts_append hbs _), (ihb hb).row hbn f rest (by omega) hs]
      simp
    exact ⟨by simp [Syn.isAtom], by simp [Syn.isPiece], fun _ => hr, Complete.ofRow hr⟩
  | bar a b iha ihb =>
    simp only [Syn.ok, Bool.and_eq_true] at h
    obtain ⟨⟨ha, hb⟩, hab⟩ := h
    have han : ∀ c d, a ≠ .bar c d := by rintro c d rfl; simp at hab
    refine ⟨by simp [Syn.isAtom], by simp [Syn.isPiece], fun h => absurd rfl (h a b), ?_⟩
    intro f rest hf hrest
    simp only [size] at hf
    obtain ⟨f, rfl⟩ : ∃ g, f = g + 1 := ⟨f - 1, by omega⟩
    simp only [Syn.text, List.append_assoc, List.cons_append, List.nil_append]
    rw [alts, (iha ha).row han f _ (by omega) rfl]
    simp only
    rw [(ihb hb).alts f rest (by omega) hrest]
    rfl

end PatternRead

/-- A text has one syntax tree at most. -/
theorem text_injective {a b : Syn} (ha : a.ok = true) (hb : b.ok = true) (h : a.text = b.text) :
    a = b := by
  have h1 := (PatternRead.complete a ha).alts (max (PatternRead.size a) (PatternRead.size b) + 2) []
    (by omega) (.inl rfl)
  have h2 := (PatternRead.complete b hb).alts (max (PatternRead.size a) (PatternRead.size b) + 2) []
    (by omega) (.inl rfl)
  rw [h, h2] at h1
  simp only [Option.some.injEq, Prod.mk.injEq, and_true] at h1
  exact h1.symm

/-- A check that a text denotes a pattern. -/
def denotesB (text : PyStr) (r : RE) : Bool :=
  match PatternRead.alts (4 * text.length + 4) text with
  | some (a, []) => a.ok && a.text == text && a.means == r
  | _ => false

theorem denotes_of_check {text : PyStr} {r : RE} (h : denotesB text r = true) : Denotes text r := by
  unfold denotesB at h
  split at h
  · rename_i a _
    simp only [Bool.and_eq_true, beq_iff_eq] at h
    exact ⟨a, h.1.1, h.1.2, h.2⟩
  · simp at h

theorem denotes_unique {text : PyStr} {r r' : RE} (h : Denotes text r) (h' : Denotes text r') :
    r = r' := by
  obtain ⟨a, ha, ht, rfl⟩ := h
  obtain ⟨b, hb, ht', rfl⟩ := h'
  rw [text_injective ha hb (ht.trans ht'.symm)]

end Verif
