import Verif.Py.Regex

/-
Two ways to compute with a pattern for all strings at once.

`RE.mz` runs the pattern on a *shape* (a list of character classes): when it gives an answer, every
string of that shape has exactly that first match.

`RE.paths` lists the character-class sequences a bounded pattern can consume: every match of any
string follows one of them.
-/

namespace Verif

/-! ### Classes -/

/-- Every range of `a` lies inside a range of `b`. -/
def subRanges (a b : List (Nat × Nat)) : Bool :=
  a.all fun x => b.any fun y => Nat.ble y.1 x.1 && Nat.ble x.2 y.2

/-- No range of `a` meets a range of `b`. -/
def disjRanges (a b : List (Nat × Nat)) : Bool :=
  a.all fun x => b.all fun y => Nat.blt x.2 y.1 || Nat.blt y.2 x.1

theorem subRanges_sound {a b : List (Nat × Nat)} (h : subRanges a b = true) {c : Nat}
    (hc : inRanges a c = true) : inRanges b c = true := by
  simp only [subRanges, inRanges, List.all_eq_true, List.any_eq_true, Bool.and_eq_true,
    Nat.ble_eq] at *
  obtain ⟨x, hx, h1, h2⟩ := hc
  obtain ⟨y, hy, h3, h4⟩ := h x hx
  exact ⟨y, hy, by omega, by omega⟩

theorem disjRanges_sound {a b : List (Nat × Nat)} (h : disjRanges a b = true) {c : Nat}
    (hc : inRanges a c = true) : inRanges b c = false := by
  rw [Bool.eq_false_iff]
  intro hb
  simp only [disjRanges, inRanges, List.all_eq_true, List.any_eq_true, Bool.and_eq_true,
    Nat.ble_eq, Bool.or_eq_true, Nat.blt_eq] at *
  obtain ⟨x, hx, h1, h2⟩ := hc
  obtain ⟨y, hy, h3, h4⟩ := hb
  have := h x hx y hy
  omega

/-- Comparison by ranges. -/
def CC.testRanges (a b : List (Nat × Nat)) : Option Bool :=
  if subRanges a b then some true
  else if disjRanges a b then some false
  else none

/-- Is every character of class `k` in class `cc` (`some true`), or none (`some false`)? -/
def CC.test (k cc : CC) : Option Bool :=
  match k, cc with
  | .digit, .digit => some true
  | .space, .space => some true
  | k, cc => CC.testRanges k.ranges cc.ranges

theorem CC.testRanges_sound {a b : List (Nat × Nat)} {t : Bool} (h : CC.testRanges a b = some t)
    {c : Nat} (hc : inRanges a c = true) : inRanges b c = t := by
  unfold CC.testRanges at h
  split at h
  · next hs => cases h; exact subRanges_sound hs hc
  · split at h
    · next hd => cases h; exact disjRanges_sound hd hc
    · cases h

theorem CC.test_sound {k cc : CC} {b : Bool} (h : CC.test k cc = some b) {c : Nat}
    (hc : k.mem c = true) : cc.mem c = b := by
  unfold CC.test at h
  split at h
  · cases h; exact hc
  · cases h; exact hc
  · exact CC.testRanges_sound h hc

/-- A single character as a class. -/
def CC.one (c : Nat) : CC := .set [(c, c)]

theorem CC.mem_one {c d : Nat} : (CC.one c).mem d = true ↔ d = c := by
  simp only [CC.mem, CC.one, CC.ranges, inRanges, List.any_cons, List.any_nil, Bool.or_false,
    Bool.and_eq_true, Nat.ble_eq]
  omega

/-! ### Shapes -/

/-- The string has the given shape: one class per character. -/
def HasShape : List CC → PyStr → Prop
  | [], s => s = []
  | k :: ks, s => ∃ c t, s = c :: t ∧ k.mem c = true ∧ HasShape ks t

theorem HasShape.length {ks : List CC} {s : PyStr} (h : HasShape ks s) : s.length = ks.length := by
  induction ks generalizing s with
  | nil => cases h; rfl
  | cons k ks ih => obtain ⟨c, t, rfl, _, h⟩ := h; simp [ih h]

theorem HasShape.get {ks : List CC} {s : PyStr} (h : HasShape ks s) {p : Nat} {k : CC}
    (hk : ks[p]? = some k) : ∃ c, s[p]? = some c ∧ k.mem c = true := by
  induction ks generalizing s p with
  | nil => simp at hk
  | cons k' ks ih =>
    obtain ⟨c, t, rfl, hc, h⟩ := h
    cases p with
    | zero => simp at hk; subst hk; exact ⟨c, rfl, hc⟩
    | succ p => simpa using ih h (by simpa using hk)

theorem HasShape.get_none {ks : List CC} {s : PyStr} (h : HasShape ks s) {p : Nat}
    (hk : ks[p]? = none) : s[p]? = none := by
  rw [List.getElem?_eq_none_iff] at *
  have := h.length
  omega

theorem HasShape.append {as bs : List CC} {a b : PyStr} (ha : HasShape as a) (hb : HasShape bs b) :
    HasShape (as ++ bs) (a ++ b) := by
  induction as generalizing a with
  | nil => cases ha; exact hb
  | cons k ks ih => obtain ⟨c, t, rfl, hc, h⟩ := ha; exact ⟨c, t ++ b, rfl, hc, ih h⟩

theorem HasShape.cons {k : CC} {ks : List CC} {c : Nat} {t : PyStr} (hc : k.mem c = true)
    (h : HasShape ks t) : HasShape (k :: ks) (c :: t) := ⟨c, t, rfl, hc, h⟩

theorem HasShape.nil : HasShape [] [] := rfl

/-- The shape of a literal text. -/
def litShape (s : PyStr) : List CC := s.map CC.one

theorem hasShape_lit (s : PyStr) : HasShape (litShape s) s := by
  induction s with
  | nil => exact rfl
  | cons c t ih => exact ⟨c, t, rfl, CC.mem_one.2 rfl, ih⟩

theorem hasShape_lit_iff {s t : PyStr} : HasShape (litShape s) t ↔ t = s := by
  constructor
  · intro h
    induction s generalizing t with
    | nil => exact h
    | cons c s ih =>
      obtain ⟨d, t', rfl, hd, h⟩ := h
      rw [CC.mem_one.1 hd, ih h]
  · rintro rfl; exact hasShape_lit _

theorem HasShape.take {ks : List CC} {s : PyStr} (h : HasShape ks s) (n : Nat) :
    HasShape (ks.take n) (s.take n) := by
  induction ks generalizing s n with
  | nil => cases h; simp [HasShape]
  | cons k ks ih =>
    obtain ⟨c, t, rfl, hc, h⟩ := h
    cases n with
    | zero => simp [HasShape]
    | succ n => exact ⟨c, t.take n, rfl, hc, ih h n⟩

theorem HasShape.drop {ks : List CC} {s : PyStr} (h : HasShape ks s) (n : Nat) :
    HasShape (ks.drop n) (s.drop n) := by
  induction ks generalizing s n with
  | nil => cases h; simp [HasShape]
  | cons k ks ih =>
    obtain ⟨c, t, rfl, hc, h⟩ := h
    cases n with
    | zero => exact ⟨c, t, rfl, hc, h⟩
    | succ n => exact ih h n

/-! ### Running a pattern on a shape -/

/-- The first match: there is none, it cannot be told from the shape, or it is this one. -/
inductive Fst where
  | fail
  | unknown
  | ok (st : St)

/-- What the answer says about the list of all matches. -/
def Fst.Of : Fst → List St → Prop
  | .fail, l => l = []
  | .unknown, _ => True
  | .ok st, l => l.head? = some st

/-- The second answer when the first is that there is no match. -/
def Fst.orElse (x : Fst) (y : Unit → Fst) : Fst :=
  match x with
  | .fail => y ()
  | .unknown => .unknown
  | .ok st => .ok st

theorem Fst.Of.append {x : Fst} {y : Unit → Fst} {l l' : List St} (h : x.Of l) (h' : (y ()).Of l') :
    (x.orElse y).Of (l ++ l') := by
  cases x with
  | fail => cases h; exact h'
  | unknown => exact trivial
  | ok st =>
    cases l with
    | nil => cases h
    | cons a l => exact h

/-- `runLen` on what is left of a shape. -/
def runLenZ (cc : CC) : Nat → List CC → Option Nat
  | 0, _ => some 0
  | _ + 1, [] => some 0
  | f + 1, k :: rem =>
    match CC.test k cc with
    | some true =>
      match runLenZ cc f rem with
      | some n => some (n + 1)
      | none => none
    | some false => some 0
    | none => none

/-- `downFrom` followed by a continuation. -/
def downZ (rem : List CC) (p : Nat) (cs : Caps) (lo : Nat) (k : List CC → Nat → Caps → Fst) :
    Nat → Fst
  | 0 => if Nat.beq lo 0 then k rem p cs else .fail
  | n + 1 =>
    if Nat.ble lo (n + 1) then
      (k (rem.drop (n + 1)) (p + (n + 1)) cs).orElse fun _ => downZ rem p cs lo k n
    else .fail

/-- The first match of the pattern followed by the continuation, the same on every string of the
shape: `rem` is what is left of the shape at position `p`, `len` the length of the whole. -/
def RE.mz (len : Nat) : RE → List CC → Nat → Caps → (List CC → Nat → Caps → Fst) → Fst
  | .eps, rem, p, cs, k => k rem p cs
  | .chr cc, rem, p, cs, k =>
    match rem with
    | [] => .fail
    | c :: rem =>
      match CC.test c cc with
      | some true => k rem (p + 1) cs
      | some false => .fail
      | none => .unknown
  | .seq a b, rem, p, cs, k => RE.mz len a rem p cs fun rem p cs => RE.mz len b rem p cs k
  | .alt a b, rem, p, cs, k =>
    (RE.mz len a rem p cs k).orElse fun _ => RE.mz len b rem p cs k
  | .opt a, rem, p, cs, k => (RE.mz len a rem p cs k).orElse fun _ => k rem p cs
  | .rep cc lo hi, rem, p, cs, k =>
    match runLenZ cc (hi.getD len) rem with
    | some n => downZ rem p cs lo k n
    | none => .unknown
  | .grp n a, rem, p, cs, k => RE.mz len a rem p cs fun rem q cs => k rem q ((n, p, q) :: cs)
  | .bos, rem, p, cs, k => if Nat.beq p 0 then k rem p cs else .fail
  | .eos, rem, p, cs, k =>
    match rem with
    | [] => k rem p cs
    | [c] =>
      match CC.test c (CC.one 10) with
      | some true => k rem p cs
      | some false => .fail
      | none => .unknown
    | _ :: _ :: _ => .fail

theorem drop_nil_get {α : Type} {l : List α} {p : Nat} (h : l.drop p = []) : l[p]? = none := by
  rw [List.getElem?_eq_none_iff]
  have := congrArg List.length h
  rw [List.length_drop, List.length_nil] at this
  omega

theorem drop_cons_get {α : Type} {l : List α} {p : Nat} {a : α} {t : List α}
    (h : l.drop p = a :: t) : l[p]? = some a ∧ t = l.drop (p + 1) ∧ p + 1 ≤ l.length := by
  have hp : p < l.length := by
    apply Classical.byContradiction
    intro hn
    rw [List.drop_eq_nil_of_le (by omega)] at h
    cases h
  rw [List.drop_eq_getElem_cons hp] at h
  cases h
  exact ⟨List.getElem?_eq_getElem hp, rfl, hp⟩

theorem runLenZ_sound {ks : List CC} {s : PyStr} (h : HasShape ks s) {cc : CC} {f p n : Nat}
    (hp : p ≤ ks.length) (hr : runLenZ cc f (ks.drop p) = some n) :
    runLen s cc f p = n ∧ p + n ≤ ks.length := by
  induction f generalizing p n with
  | zero =>
    simp only [runLenZ, Option.some.injEq] at hr
    subst hr
    exact ⟨rfl, hp⟩
  | succ f ih =>
    unfold runLen
    cases hk : ks.drop p with
    | nil =>
      rw [hk] at hr
      simp only [runLenZ, Option.some.injEq] at hr
      subst hr
      rw [h.get_none (drop_nil_get hk)]
      exact ⟨rfl, hp⟩
    | cons k rem =>
      obtain ⟨h1, rfl, h3⟩ := drop_cons_get hk
      obtain ⟨c, hc, hm⟩ := h.get h1
      rw [hk] at hr
      unfold runLenZ at hr
      simp only [hc]
      cases ht : CC.test k cc with
      | none => simp [ht] at hr
      | some b =>
        have hb := CC.test_sound ht hm
        cases b with
        | false =>
          simp only [ht, Option.some.injEq] at hr
          subst hr
          simp [hb, hp]
        | true =>
          simp only [ht] at hr
          cases hz : runLenZ cc f (ks.drop (p + 1)) with
          | none => simp [hz] at hr
          | some n' =>
            simp only [hz, Option.some.injEq] at hr
            subst hr
            obtain ⟨h5, h6⟩ := ih h3 hz
            rw [hb, h5]
            exact ⟨rfl, by omega⟩

theorem downZ_sound {ks : List CC} {p : Nat} {cs : Caps} {lo : Nat}
    {k : List CC → Nat → Caps → Fst} {K : St → List St}
    (hk : ∀ p cs, p ≤ ks.length → (k (ks.drop p) p cs).Of (K (p, cs))) {n : Nat}
    (hn : p + n ≤ ks.length) :
    (downZ (ks.drop p) p cs lo k n).Of ((downFrom p cs lo n).flatMap K) := by
  induction n with
  | zero =>
    unfold downZ downFrom
    by_cases hl : lo = 0
    · subst hl
      simpa using hk p cs (by omega)
    · have : Nat.beq lo 0 = false := by
        rw [Bool.eq_false_iff]
        intro e
        exact hl (Nat.eq_of_beq_eq_true e)
      rw [this, if_neg hl]
      exact rfl
  | succ n ih =>
    unfold downZ downFrom
    by_cases hl : lo ≤ n + 1
    · rw [if_pos (Nat.ble_eq_true_of_le hl), if_pos hl, List.flatMap_cons, List.drop_drop]
      exact (hk _ _ hn).append (ih (by omega))
    · rw [if_neg (fun e => hl (Nat.le_of_ble_eq_true e)), if_neg hl]
      exact rfl

theorem RE.mz_sound {ks : List CC} {s : PyStr} (h : HasShape ks s) (r : RE) (p : Nat) (cs : Caps)
    (hp : p ≤ ks.length) (k : List CC → Nat → Caps → Fst) (K : St → List St)
    (hk : ∀ p cs, p ≤ ks.length → (k (ks.drop p) p cs).Of (K (p, cs))) :
    (RE.mz ks.length r (ks.drop p) p cs k).Of ((RE.m s r (p, cs)).flatMap K) := by
  induction r generalizing p cs k K with
  | eps =>
    unfold RE.mz RE.m
    simpa using hk p cs hp
  | chr cc =>
    unfold RE.mz RE.m
    cases hd : ks.drop p with
    | nil =>
      rw [h.get_none (drop_nil_get hd)]
      exact rfl
    | cons c rem =>
      obtain ⟨h1, rfl, h3⟩ := drop_cons_get hd
      obtain ⟨c', hc, hm⟩ := h.get h1
      simp only [hc]
      cases ht : CC.test c cc with
      | none => exact trivial
      | some b =>
        have := CC.test_sound ht hm
        cases b with
        | false => simp only [this]; exact rfl
        | true =>
          simp only [this, if_true, List.flatMap_cons, List.flatMap_nil, List.append_nil]
          exact hk (p + 1) cs h3
  | seq a b iha ihb =>
    unfold RE.mz RE.m
    rw [List.flatMap_assoc]
    exact iha p cs hp _ _ fun p cs hp => ihb p cs hp k K hk
  | alt a b iha ihb =>
    unfold RE.mz RE.m
    rw [List.flatMap_append]
    exact (iha p cs hp k K hk).append (ihb p cs hp k K hk)
  | opt a iha =>
    unfold RE.mz RE.m
    rw [List.flatMap_append]
    refine (iha p cs hp k K hk).append ?_
    simpa using hk p cs hp
  | rep cc lo hi =>
    unfold RE.mz RE.m
    rw [h.length]
    cases hz : runLenZ cc (hi.getD ks.length) (ks.drop p) with
    | none => exact trivial
    | some n =>
      obtain ⟨h1, h2⟩ := runLenZ_sound h hp hz
      simp only [h1]
      exact downZ_sound hk h2
  | grp n a iha =>
    unfold RE.mz RE.m
    rw [List.flatMap_map]
    exact iha p cs hp _ _ fun q cs hq => hk q _ hq
  | bos =>
    unfold RE.mz RE.m
    by_cases h0 : p = 0
    · subst h0
      simpa using hk 0 cs (by omega)
    · have : Nat.beq p 0 = false := by
        rw [Bool.eq_false_iff]
        intro e
        exact h0 (Nat.eq_of_beq_eq_true e)
      rw [this]
      simp only [h0, if_false]
      exact rfl
  | eos =>
    unfold RE.mz RE.m atEnd
    have hl := h.length
    cases hd : ks.drop p with
    | nil =>
      have hp' : p = s.length := by
        have := congrArg List.length hd
        rw [List.length_drop, List.length_nil] at this
        omega
      have hk' := hk p cs hp
      rw [hd] at hk'
      simpa [hp'] using hk'
    | cons c rem =>
      obtain ⟨h1, h2, h3⟩ := drop_cons_get hd
      obtain ⟨c', hc, hm⟩ := h.get h1
      have e1 : (p == s.length) = false := by simp; omega
      have hlen := congrArg List.length h2
      rw [List.length_drop] at hlen
      cases rem with
      | nil =>
        have e2 : (p + 1 == s.length) = true := by simp at hlen ⊢; omega
        simp only [e1, e2, hc]
        cases ht : CC.test c (CC.one 10) with
        | none => exact trivial
        | some b =>
          have hb := CC.test_sound ht hm
          have e3 : (some c' == some 10) = b := by
            rw [← hb, Bool.eq_iff_iff, CC.mem_one]
            simp
          rw [e3]
          have hk' := hk p cs hp
          rw [hd] at hk'
          cases b with
          | false => exact rfl
          | true => simpa using hk'
      | cons c2 rem =>
        have e2 : (p + 1 == s.length) = false := by simp at hlen ⊢; omega
        simp only [e1, e2]
        exact rfl

/-- `re.match` on a shape: `none` undetermined, `some none` no match, `some (some (stop, caps))`. -/
def RE.matchA (r : RE) (ks : List CC) : Option (Option St) :=
  match RE.mz ks.length r ks 0 [] fun _ p cs => .ok (p, cs) with
  | .ok st => some (some st)
  | .fail => some none
  | .unknown => none

theorem RE.matchA_sound {r : RE} {ks : List CC} {s : PyStr} (h : HasShape ks s) {o : Option St}
    (hr : r.matchA ks = some o) : r.match s = o.map fun st => ⟨s, st.1, st.2⟩ := by
  unfold RE.matchA at hr
  have hs := RE.mz_sound h r 0 [] (Nat.zero_le _) (fun _ p cs => .ok (p, cs)) (fun st => [st])
    (fun p cs _ => rfl)
  rw [List.drop_zero, List.flatMap_singleton'] at hs
  unfold RE.match
  split at hr
  · next st hl =>
    cases hr
    rw [hl] at hs
    cases hm : RE.m s r (0, []) with
    | nil => rw [hm] at hs; cases hs
    | cons a l => rw [hm] at hs; cases hs; rfl
  · next hl =>
    cases hr
    rw [hl] at hs
    rw [show RE.m s r (0, []) = [] from hs]
    rfl
  · cases hr

theorem RE.matchA_some {r : RE} {ks : List CC} {s : PyStr} (h : HasShape ks s) {n : Nat} {cs : Caps}
    (hr : r.matchA ks = some (some (n, cs))) : r.match s = some ⟨s, n, cs⟩ := by
  rw [RE.matchA_sound h hr]; rfl

theorem RE.matchA_none {r : RE} {ks : List CC} {s : PyStr} (h : HasShape ks s)
    (hr : r.matchA ks = some none) : r.match s = none := by
  rw [RE.matchA_sound h hr]; rfl

/-! ### The ways a bounded pattern can match -/

/-- Flat-map in `Option`. -/
def flatMapO {α β : Type} (f : α → Option (List β)) : List α → Option (List β)
  | [] => some []
  | a :: as =>
    match f a with
    | none => none
    | some l =>
      match flatMapO f as with
      | none => none
      | some l' => some (l ++ l')

/-- One step of a path: consume a character of a class, or be at the end. -/
inductive Step where
  | ch (cc : CC)
  | eos
deriving DecidableEq, Repr

/-- The path can be followed in `s` from `p`. -/
def Follows (s : PyStr) : Nat → List Step → Prop
  | _, [] => True
  | p, .ch cc :: t => ∃ c, s[p]? = some c ∧ cc.mem c = true ∧ Follows s (p + 1) t
  | p, .eos :: t => atEnd s p = true ∧ Follows s p t

/-- Number of characters consumed. -/
def pathLen : List Step → Nat
  | [] => 0
  | .ch _ :: t => pathLen t + 1
  | .eos :: t => pathLen t

theorem pathLen_append (a b : List Step) : pathLen (a ++ b) = pathLen a + pathLen b := by
  induction a with
  | nil => simp [pathLen]
  | cons x t ih => cases x <;> simp [pathLen, ih] <;> omega

theorem Follows.append {s : PyStr} {p : Nat} {a b : List Step} (ha : Follows s p a)
    (hb : Follows s (p + pathLen a) b) : Follows s p (a ++ b) := by
  induction a generalizing p with
  | nil => simpa [pathLen] using hb
  | cons x t ih =>
    cases x with
    | ch cc =>
      obtain ⟨c, h1, h2, h3⟩ := ha
      refine ⟨c, h1, h2, ih h3 ?_⟩
      simp only [pathLen] at hb
      rw [show p + 1 + pathLen t = p + (pathLen t + 1) by omega]
      exact hb
    | eos => exact ⟨ha.1, ih ha.2 (by simpa [pathLen] using hb)⟩

/-- The paths of a bounded pattern from a state, each with the state it leads to. -/
def RE.paths : RE → St → Option (List (List Step × St))
  | .eps, st => some [([], st)]
  | .chr cc, st => some [([.ch cc], (st.1 + 1, st.2))]
  | .seq a b, st =>
    match RE.paths a st with
    | none => none
    | some l => flatMapO (fun x => (RE.paths b x.2).map fun l' => l'.map fun y => (x.1 ++ y.1, y.2)) l
  | .alt a b, st =>
    match RE.paths a st, RE.paths b st with
    | some l, some l' => some (l ++ l')
    | _, _ => none
  | .opt a, st => (RE.paths a st).map (· ++ [([], st)])
  | .rep _ _ none, _ => none
  | .rep cc lo (some hi), st =>
    some ((List.range (hi + 1 - lo)).map fun k =>
      (List.replicate (lo + k) (.ch cc), (st.1 + (lo + k), st.2)))
  | .grp n a, st =>
    (RE.paths a st).map fun l => l.map fun x => (x.1, (x.2.1, (n, st.1, x.2.1) :: x.2.2))
  | .bos, st => some (if st.1 = 0 then [([], st)] else [])
  | .eos, st => some [([.eos], st)]

theorem mem_downFrom {p : Nat} {cs : Caps} {lo n : Nat} {st : St} (h : st ∈ downFrom p cs lo n) :
    ∃ k, lo ≤ k ∧ k ≤ n ∧ st = (p + k, cs) := by
  induction n with
  | zero =>
    unfold downFrom at h
    split at h
    · simp at h; exact ⟨0, by omega, by omega, by simp [h]⟩
    · simp at h
  | succ n ih =>
    unfold downFrom at h
    split at h
    · rcases List.mem_cons.1 h with h | h
      · exact ⟨n + 1, by omega, by omega, h⟩
      · obtain ⟨k, h1, h2, h3⟩ := ih h
        exact ⟨k, h1, by omega, h3⟩
    · simp at h

theorem runLen_le (s : PyStr) (cc : CC) (f p : Nat) : runLen s cc f p ≤ f := by
  induction f generalizing p with
  | zero => simp [runLen]
  | succ f ih =>
    unfold runLen
    split
    · split
      · have := ih (p + 1); omega
      · omega
    · omega

theorem follows_runLen {s : PyStr} {cc : CC} {f p k : Nat} (h : k ≤ runLen s cc f p) :
    Follows s p (List.replicate k (.ch cc)) := by
  induction k generalizing f p with
  | zero => trivial
  | succ k ih =>
    cases f with
    | zero => simp [runLen] at h
    | succ f =>
      unfold runLen at h
      cases hc : s[p]? with
      | none => simp [hc] at h
      | some c =>
        simp only [hc] at h
        split at h
        · next hm => exact ⟨c, hc, hm, ih (f := f) (by omega)⟩
        · omega

theorem pathLen_replicate (k : Nat) (cc : CC) : pathLen (List.replicate k (.ch cc)) = k := by
  induction k with
  | zero => rfl
  | succ k ih => simp [List.replicate_succ, pathLen, ih]

theorem flatMapO_mem {α β : Type} {f : α → Option (List β)} {as : List α} {l : List β}
    (hl : flatMapO f as = some l) {a : α} (ha : a ∈ as) :
    ∃ l', f a = some l' ∧ ∀ b ∈ l', b ∈ l := by
  induction as generalizing l with
  | nil => simp at ha
  | cons x as ih =>
    unfold flatMapO at hl
    cases hx : f x with
    | none => simp [hx] at hl
    | some l1 =>
      cases hb : flatMapO f as with
      | none => simp [hx, hb] at hl
      | some l2 =>
        simp only [hx, hb, Option.some.injEq] at hl
        subst hl
        rcases List.mem_cons.1 ha with rfl | ha
        · exact ⟨l1, hx, fun b hb => List.mem_append_left _ hb⟩
        · obtain ⟨l', h1, h2⟩ := ih hb ha
          exact ⟨l', h1, fun b hb => List.mem_append_right _ (h2 b hb)⟩

theorem RE.paths_sound {s : PyStr} (r : RE) {st : St} {ps : List (List Step × St)}
    (hp : r.paths st = some ps) {st' : St} (h : st' ∈ RE.m s r st) :
    ∃ x ∈ ps, x.2 = st' ∧ Follows s st.1 x.1 ∧ st'.1 = st.1 + pathLen x.1 := by
  induction r generalizing st ps st' with
  | eps =>
    simp only [RE.paths, Option.some.injEq] at hp; subst hp
    simp only [RE.m, List.mem_singleton] at h; subst h
    exact ⟨_, List.mem_singleton.2 rfl, rfl, trivial, rfl⟩
  | chr cc =>
    simp only [RE.paths, Option.some.injEq] at hp; subst hp
    unfold RE.m at h
    cases hc : s[st.1]? with
    | none => simp [hc] at h
    | some c =>
      simp only [hc] at h
      split at h
      · next hm =>
        simp only [List.mem_singleton] at h; subst h
        exact ⟨_, List.mem_singleton.2 rfl, rfl, ⟨c, hc, hm, trivial⟩, rfl⟩
      · simp at h
  | seq a b iha ihb =>
    unfold RE.paths at hp
    cases ha : a.paths st with
    | none => simp [ha] at hp
    | some l1 =>
      simp only [ha] at hp
      simp only [RE.m, List.mem_flatMap] at h
      obtain ⟨st1, h1, h2⟩ := h
      obtain ⟨x, hx, hx2, hf, hl⟩ := iha ha h1
      obtain ⟨l', hl', hsub⟩ := flatMapO_mem hp hx
      simp only [Option.map_eq_some_iff] at hl'
      obtain ⟨l2, hb, rfl⟩ := hl'
      rw [hx2] at hb
      obtain ⟨y, hy, hy2, hf2, hl2⟩ := ihb hb h2
      refine ⟨(x.1 ++ y.1, y.2), hsub _ (List.mem_map.2 ⟨y, hy, rfl⟩), hy2, ?_, ?_⟩
      · exact hf.append (hl ▸ hf2)
      · rw [pathLen_append]; omega
  | alt a b iha ihb =>
    unfold RE.paths at hp
    cases ha : a.paths st with
    | none => simp [ha] at hp
    | some l1 =>
      cases hb : b.paths st with
      | none => simp [ha, hb] at hp
      | some l2 =>
        simp only [ha, hb, Option.some.injEq] at hp; subst hp
        rcases List.mem_append.1 h with h | h
        · obtain ⟨x, hx, h1⟩ := iha ha h
          exact ⟨x, List.mem_append_left _ hx, h1⟩
        · obtain ⟨x, hx, h1⟩ := ihb hb h
          exact ⟨x, List.mem_append_right _ hx, h1⟩
  | opt a iha =>
    unfold RE.paths at hp
    simp only [Option.map_eq_some_iff] at hp
    obtain ⟨l1, ha, rfl⟩ := hp
    rcases List.mem_append.1 h with h | h
    · obtain ⟨x, hx, h1⟩ := iha ha h
      exact ⟨x, List.mem_append_left _ hx, h1⟩
    · simp only [List.mem_singleton] at h; subst h
      exact ⟨([], st'), List.mem_append_right _ (List.mem_singleton.2 rfl), rfl, trivial, rfl⟩
  | rep cc lo hi =>
    cases hi with
    | none => simp [RE.paths] at hp
    | some hi =>
      simp only [RE.paths, Option.some.injEq] at hp; subst hp
      simp only [RE.m, Option.getD_some] at h
      obtain ⟨k, h1, h2, h3⟩ := mem_downFrom h
      have h4 := runLen_le s cc hi st.1
      refine ⟨(List.replicate k (.ch cc), (st.1 + k, st.2)), ?_, h3.symm, follows_runLen h2, ?_⟩
      · refine List.mem_map.2 ⟨k - lo, List.mem_range.2 (by omega), ?_⟩
        rw [show lo + (k - lo) = k by omega]
      · rw [h3, pathLen_replicate]
  | grp n a iha =>
    unfold RE.paths at hp
    simp only [Option.map_eq_some_iff] at hp
    obtain ⟨l1, ha, rfl⟩ := hp
    simp only [RE.m, List.mem_map] at h
    obtain ⟨st1, h1, rfl⟩ := h
    obtain ⟨x, hx, hx2, hf, hl⟩ := iha ha h1
    refine ⟨_, List.mem_map.2 ⟨x, hx, rfl⟩, ?_, hf, hl⟩
    simp [hx2]
  | bos =>
    simp only [RE.paths, Option.some.injEq] at hp; subst hp
    simp only [RE.m] at h
    split at h
    · next h0 =>
      simp only [List.mem_singleton] at h; subst h
      simp only [h0, if_true]
      exact ⟨_, List.mem_singleton.2 rfl, rfl, trivial, by simp [pathLen]⟩
    · simp at h
  | eos =>
    simp only [RE.paths, Option.some.injEq] at hp; subst hp
    simp only [RE.m] at h
    split at h
    · next h0 =>
      simp only [List.mem_singleton] at h; subst h
      exact ⟨_, List.mem_singleton.2 rfl, rfl, ⟨h0, trivial⟩, rfl⟩
    · simp at h

/-- The paths from the start of the string. -/
def RE.paths0 (r : RE) : List (List Step × St) := (r.paths (0, [])).getD []

/-- Every match of a bounded pattern follows one of its paths. -/
theorem RE.match_path {r : RE} (hb : (r.paths (0, [])).isSome = true) {s : PyStr} {m : Match}
    (h : r.match s = some m) :
    ∃ x ∈ r.paths0, m.string = s ∧ m.stop = pathLen x.1 ∧ m.caps = x.2.2 ∧ Follows s 0 x.1 := by
  obtain ⟨ps, hp⟩ := Option.isSome_iff_exists.1 hb
  unfold RE.match at h
  simp only [Option.map_eq_some_iff] at h
  obtain ⟨st, h1, rfl⟩ := h
  have h2 : st ∈ RE.m s r (0, []) := List.mem_of_head? h1
  obtain ⟨x, hx, hx2, hf, hl⟩ := RE.paths_sound r hp h2
  refine ⟨x, by simpa [RE.paths0, hp] using hx, rfl, by simpa using hl, by simp [hx2], hf⟩

end Verif
