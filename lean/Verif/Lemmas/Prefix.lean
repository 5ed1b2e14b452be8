import Verif.Lemmas.Forms
import Verif.Lemmas.VisForms

/-
Running a pattern on a text of which only the beginning is known.
-/

namespace Verif

/-- `runLen` on what is left of the known beginning. -/
def runLenP (cc : CC) : Nat → List CC → Option Nat
  | 0, _ => some 0
  | _ + 1, [] => none
  | f + 1, k :: rem =>
    match CC.test k cc with
    | some true =>
      match runLenP cc f rem with
      | some n => some (n + 1)
      | none => none
    | some false => some 0
    | none => none

/-- As `RE.mz`, for the texts that begin with the shape. -/
def RE.mp : RE → List CC → Nat → Caps → (List CC → Nat → Caps → Fst) → Fst
  | .eps, rem, p, cs, k => k rem p cs
  | .chr cc, rem, p, cs, k =>
    match rem with
    | [] => .unknown
    | c :: rem =>
      match CC.test c cc with
      | some true => k rem (p + 1) cs
      | some false => .fail
      | none => .unknown
  | .seq a b, rem, p, cs, k => RE.mp a rem p cs fun rem p cs => RE.mp b rem p cs k
  | .alt a b, rem, p, cs, k => (RE.mp a rem p cs k).orElse fun _ => RE.mp b rem p cs k
  | .opt a, rem, p, cs, k => (RE.mp a rem p cs k).orElse fun _ => k rem p cs
  | .rep _ _ none, _, _, _, _ => .unknown
  | .rep cc lo (some hi), rem, p, cs, k =>
    match runLenP cc hi rem with
    | some n => downZ rem p cs lo k n
    | none => .unknown
  | .grp n a, rem, p, cs, k => RE.mp a rem p cs fun rem q cs => k rem q ((n, p, q) :: cs)
  | .bos, rem, p, cs, k => if Nat.beq p 0 then k rem p cs else .fail
  | .eos, _, _, _, _ => .unknown

/-- The text begins with the shape. -/
def BeginsShape (ks : List CC) (s : PyStr) : Prop := ∃ a b, s = a ++ b ∧ HasShape ks a

theorem BeginsShape.get {ks : List CC} {s : PyStr} (h : BeginsShape ks s) {p : Nat} {k : CC}
    (hk : ks[p]? = some k) : ∃ c, s[p]? = some c ∧ k.mem c = true := by
  obtain ⟨a, b, rfl, ha⟩ := h
  obtain ⟨c, hc, hm⟩ := ha.get hk
  refine ⟨c, ?_, hm⟩
  obtain ⟨hp, -⟩ := List.getElem?_eq_some_iff.1 hc
  rw [List.getElem?_append_left hp]
  exact hc

theorem runLenP_sound {ks : List CC} {s : PyStr} (h : BeginsShape ks s) {cc : CC} {f p n : Nat}
    (hp : p ≤ ks.length) (hr : runLenP cc f (ks.drop p) = some n) :
    runLen s cc f p = n ∧ p + n ≤ ks.length := by
  induction f generalizing p n with
  | zero =>
    simp only [runLenP, Option.some.injEq] at hr
    subst hr
    exact ⟨rfl, hp⟩
  | succ f ih =>
    unfold runLen
    cases hk : ks.drop p with
    | nil =>
      rw [hk] at hr
      cases hr
    | cons k rem =>
      obtain ⟨h1, rfl, h3⟩ := drop_cons_get hk
      obtain ⟨c, hc, hm⟩ := h.get h1
      rw [hk] at hr
      unfold runLenP at hr
      simp only [hc]
      cases ht : CC.test k cc with
      | none => simp [ht] at hr
      | some b =>
        have hb := CC.test_sound ht hm
        cases b with
        | false =>
          simp only [ht, Option.some.injEq] at hr
          subst hr
          simp [hb, hp]
        | true =>
          simp only [ht] at hr
          cases hz : runLenP cc f (ks.drop (p + 1)) with
          | none => simp [hz] at hr
          | some n' =>
            simp only [hz, Option.some.injEq] at hr
            subst hr
            obtain ⟨h5, h6⟩ := ih h3 hz
            rw [hb, h5]
            exact ⟨rfl, by omega⟩

theorem RE.mp_sound {ks : List CC} {s : PyStr} (h : BeginsShape ks s) (r : RE) (p : Nat) (cs : Caps)
    (hp : p ≤ ks.length) (k : List CC → Nat → Caps → Fst) (K : St → List St)
    (hk : ∀ p cs, p ≤ ks.length → (k (ks.drop p) p cs).Of (K (p, cs))) :
    (RE.mp r (ks.drop p) p cs k).Of ((RE.m s r (p, cs)).flatMap K) := by
  induction r generalizing p cs k K with
  | eps =>
    unfold RE.mp RE.m
    simpa using hk p cs hp
  | chr cc =>
    unfold RE.mp RE.m
    cases hd : ks.drop p with
    | nil => exact trivial
    | cons c rem =>
      obtain ⟨h1, rfl, h3⟩ := drop_cons_get hd
      obtain ⟨c', hc, hm⟩ := h.get h1
      simp only [hc]
      cases ht : CC.test c cc with
      | none => exact trivial
      | some b =>
        have := CC.test_sound ht hm
        cases b with
        | false => simp only [this]; exact rfl
        | true =>
          simp only [this, if_true, List.flatMap_cons, List.flatMap_nil, List.append_nil]
          exact hk (p + 1) cs h3
  | seq a b iha ihb =>
    unfold RE.mp RE.m
    rw [List.flatMap_assoc]
    exact iha p cs hp _ _ fun p cs hp => ihb p cs hp k K hk
  | alt a b iha ihb =>
    unfold RE.mp RE.m
    rw [List.flatMap_append]
    exact (iha p cs hp k K hk).append (ihb p cs hp k K hk)
  | opt a iha =>
    unfold RE.mp RE.m
    rw [List.flatMap_append]
    refine (iha p cs hp k K hk).append ?_
    simpa using hk p cs hp
  | rep cc lo hi =>
    cases hi with
    | none => unfold RE.mp; exact trivial
    | some hi =>
      unfold RE.mp RE.m
      simp only [Option.getD_some]
      cases hz : runLenP cc hi (ks.drop p) with
      | none => exact trivial
      | some n =>
        obtain ⟨h1, h2⟩ := runLenP_sound h hp hz
        simp only [h1]
        exact downZ_sound hk h2
  | grp n a iha =>
    unfold RE.mp RE.m
    rw [List.flatMap_map]
    exact iha p cs hp _ _ fun q cs hq => hk q _ hq
  | bos =>
    unfold RE.mp RE.m
    by_cases h0 : p = 0
    · subst h0
      simpa using hk 0 cs (by omega)
    · have : Nat.beq p 0 = false := by
        rw [Bool.eq_false_iff]
        intro e
        exact h0 (Nat.eq_of_beq_eq_true e)
      rw [this]
      simp only [h0, if_false]
      exact rfl
  | eos => unfold RE.mp; exact trivial

/-- The pattern matches every text that begins with pieces of these shapes, up to the end of the
pieces, and the named groups are the given pieces. -/
def RE.chkP (r : RE) (kss : List (List CC)) (caps : List (Cap × Option Nat)) : Bool :=
  match RE.mp r kss.flatten 0 [] fun _ p cs => .ok (p, cs) with
  | .ok (n, cs) =>
    Nat.beq n kss.flatten.length && caps.all fun co =>
      match co.2, cs.lookup co.1 with
      | none, none => true
      | some i, some (a, b) =>
        Nat.blt i kss.length && Nat.beq a (offs kss i) && Nat.beq b (offs kss (i + 1))
      | _, _ => false
  | _ => false

theorem offs_le {kss : List (List CC)} {ts : List PyStr} (hs : Shapes kss ts) (i : Nat) :
    offs kss i ≤ ts.flatten.length := by
  rw [hs.flatten.length]
  unfold offs
  have : kss.flatten = (kss.take i).flatten ++ (kss.drop i).flatten := by
    rw [← List.flatten_append, List.take_append_drop]
  rw [this, List.length_append]
  omega

theorem RE.chkP_sound {r : RE} {kss : List (List CC)} {caps : List (Cap × Option Nat)}
    (hc : r.chkP kss caps = true) {ts : List PyStr} (h : Shapes kss ts) (rest : PyStr) :
    ∃ m, r.match (ts.flatten ++ rest) = some m ∧
      ∀ co ∈ caps, m.group co.1 = co.2.map fun i => (ts[i]?).getD [] := by
  unfold RE.chkP at hc
  split at hc
  · next n cs hm =>
    have hs := RE.mp_sound (ks := kss.flatten) (s := ts.flatten ++ rest) ⟨_, _, rfl, h.flatten⟩ r 0 []
      (Nat.zero_le _) (fun _ p cs => .ok (p, cs)) (fun st => [st]) (fun p cs _ => rfl)
    rw [List.drop_zero, List.flatMap_singleton', hm] at hs
    simp only [Bool.and_eq_true, List.all_eq_true] at hc
    refine ⟨⟨ts.flatten ++ rest, n, cs⟩, ?_, ?_⟩
    · unfold RE.match
      rw [show (RE.m (ts.flatten ++ rest) r (0, [])).head? = some (n, cs) from hs]
      rfl
    · rintro ⟨c, o⟩ hco
      have := hc.2 _ hco
      simp only at this
      unfold Match.group
      simp only
      split at this
      · next h1 h2 => rw [h2]; rfl
      · next i a b h1 h2 =>
        simp only [Bool.and_eq_true, Nat.blt_eq, Nat.beq_eq] at this
        obtain ⟨⟨hi, rfl⟩, rfl⟩ := this
        rw [h2]
        simp only [Option.map_some]
        rw [← piece_eq h hi, List.drop_append_of_le_length (offs_le h _), List.take_append_of_le_length]
        rw [List.length_drop]
        exact Nat.sub_le_sub_right (offs_le h _) _
      · cases this
  · cases hc

/-- The visibility pattern of a TAF takes all of a group that ends with two letters or has a fraction. -/
def closedForms : List Form :=
  [([List.replicate 4 .digit, [nsew, ew]], (.vis, some 0) :: (.dir, some 1) :: noRange)] ++
    rangeForms.filter fun f => f.2.any fun co => co.1 == .fraction && co.2.isSome

set_option maxRecDepth 100000 in
theorem tafVis_closed : (closedForms.all fun f => TafRegExp.VISIBILITY.chkP f.1 f.2) = true := by
  decide +kernel

end Verif
