import Verif.Lemmas.Paths

/-
Running a pattern on a text given as a list of pieces of known shapes: when the check succeeds, the
pattern matches the whole text and each named group is exactly one of the pieces (or absent).
-/

namespace Verif

/-- Each text has the shape at the same position. -/
def Shapes : List (List CC) → List PyStr → Prop
  | [], [] => True
  | ks :: kss, t :: ts => HasShape ks t ∧ Shapes kss ts
  | _, _ => False

theorem Shapes.flatten {kss : List (List CC)} {ts : List PyStr} (h : Shapes kss ts) :
    HasShape kss.flatten ts.flatten := by
  induction kss generalizing ts with
  | nil => cases ts with
    | nil => exact rfl
    | cons t ts => exact h.elim
  | cons ks kss ih =>
    cases ts with
    | nil => exact h.elim
    | cons t ts => exact h.1.append (ih h.2)

theorem Shapes.take {kss : List (List CC)} {ts : List PyStr} (h : Shapes kss ts) (i : Nat) :
    Shapes (kss.take i) (ts.take i) := by
  induction kss generalizing ts i with
  | nil => cases ts with
    | nil => simp [Shapes]
    | cons t ts => exact h.elim
  | cons ks kss ih =>
    cases ts with
    | nil => exact h.elim
    | cons t ts =>
      cases i with
      | zero => simp [Shapes]
      | succ i => exact ⟨h.1, ih h.2 i⟩

theorem Shapes.length {kss : List (List CC)} {ts : List PyStr} (h : Shapes kss ts) :
    ts.length = kss.length := by
  induction kss generalizing ts with
  | nil => cases ts with
    | nil => rfl
    | cons t ts => exact h.elim
  | cons ks kss ih =>
    cases ts with
    | nil => exact h.elim
    | cons t ts => simp [ih h.2]

/-- Where piece `i` begins. -/
def offs (kss : List (List CC)) (i : Nat) : Nat := (kss.take i).flatten.length

/-- The pattern matches every text made of pieces of these shapes, up to its end, and the named
groups are the given pieces. -/
def RE.chk (r : RE) (kss : List (List CC)) (caps : List (Cap × Option Nat)) : Bool :=
  match r.matchA kss.flatten with
  | some (some (n, cs)) =>
    Nat.beq n kss.flatten.length && caps.all fun co =>
      match co.2, cs.lookup co.1 with
      | none, none => true
      | some i, some (a, b) =>
        Nat.blt i kss.length && Nat.beq a (offs kss i) && Nat.beq b (offs kss (i + 1))
      | _, _ => false
  | _ => false

theorem piece_eq {kss : List (List CC)} {ts : List PyStr} (h : Shapes kss ts) {i : Nat}
    (hi : i < kss.length) :
    (ts.flatten.drop (offs kss i)).take (offs kss (i + 1) - offs kss i) = (ts[i]?).getD [] := by
  induction kss generalizing ts i with
  | nil => simp at hi
  | cons ks kss ih =>
    cases ts with
    | nil => exact h.elim
    | cons t ts =>
      have hl := h.1.length
      cases i with
      | zero =>
        simp [offs, ← hl]
      | succ i =>
        have e : ∀ j, offs (ks :: kss) (j + 1) = t.length + offs kss j := by
          intro j; simp [offs, hl]
        rw [e, e, List.flatten_cons]
        have : t.length + offs kss (i + 1) - (t.length + offs kss i) =
            offs kss (i + 1) - offs kss i := by omega
        rw [this, List.drop_append]
        simp only [List.getElem?_cons_succ]
        have h1 : t.drop (t.length + offs kss i) = [] := List.drop_eq_nil_of_le (by omega)
        rw [h1, List.nil_append, show t.length + offs kss i - t.length = offs kss i by omega]
        exact ih h.2 (by simpa using hi)

theorem RE.chk_sound {r : RE} {kss : List (List CC)} {caps : List (Cap × Option Nat)}
    (hc : r.chk kss caps = true) {ts : List PyStr} (h : Shapes kss ts) :
    ∃ m, r.match ts.flatten = some m ∧ m.string = ts.flatten ∧
      ∀ co ∈ caps, m.group co.1 = co.2.map fun i => (ts[i]?).getD [] := by
  unfold RE.chk at hc
  split at hc
  · next n cs hm =>
    simp only [Bool.and_eq_true, List.all_eq_true] at hc
    refine ⟨⟨ts.flatten, n, cs⟩, RE.matchA_some h.flatten hm, rfl, ?_⟩
    rintro ⟨c, o⟩ hco
    have := hc.2 _ hco
    simp only at this
    unfold Match.group
    simp only
    split at this
    · next h1 h2 => rw [h2]; rfl
    · next i a b h1 h2 =>
      simp only [Bool.and_eq_true, Nat.blt_eq, Nat.beq_eq] at this
      obtain ⟨⟨hi, rfl⟩, rfl⟩ := this
      rw [h2]
      simp only [Option.map_some]
      rw [piece_eq h hi]
    · cases this
  · cases hc

theorem RE.chk_stop {r : RE} {kss : List (List CC)} {caps : List (Cap × Option Nat)}
    (hc : r.chk kss caps = true) {ts : List PyStr} (h : Shapes kss ts) {m : Match}
    (hm : r.match ts.flatten = some m) : m.stop = ts.flatten.length := by
  unfold RE.chk at hc
  split at hc
  · next n cs hm' =>
    simp only [Bool.and_eq_true, Nat.beq_eq] at hc
    rw [RE.matchA_some h.flatten hm'] at hm
    cases hm
    rw [h.flatten.length]
    exact hc.1
  · cases hc

/-- The pattern matches no text of this shape. -/
def RE.chkNone (r : RE) (ks : List CC) : Bool :=
  match r.matchA ks with
  | some none => true
  | _ => false

theorem RE.chkNone_sound {r : RE} {ks : List CC} (hc : r.chkNone ks = true) {s : PyStr}
    (h : HasShape ks s) : r.match s = none := by
  unfold RE.chkNone at hc
  split at hc
  · next hm => exact RE.matchA_none h hm
  · cases hc

end Verif

namespace Verif

theorem HasShape.append_inv {as bs : List CC} {s : PyStr} (h : HasShape (as ++ bs) s) :
    ∃ a b, s = a ++ b ∧ HasShape as a ∧ HasShape bs b := by
  induction as generalizing s with
  | nil => exact ⟨[], s, rfl, rfl, h⟩
  | cons k ks ih =>
    obtain ⟨c, t, rfl, hc, h⟩ := h
    obtain ⟨a, b, rfl, ha, hb⟩ := ih h
    exact ⟨c :: a, b, rfl, ⟨c, a, rfl, hc, ha⟩, hb⟩

/-- No class of the shape contains the character. -/
def avoids (c : Nat) (ks : List CC) : Bool := ks.all fun k => !k.mem c

theorem avoids_sound {c : Nat} {ks : List CC} (h : avoids c ks = true) {s : PyStr}
    (hs : HasShape ks s) : c ∉ s := by
  induction ks generalizing s with
  | nil => cases hs; simp
  | cons k ks ih =>
    obtain ⟨d, t, rfl, hd, hs⟩ := hs
    simp only [avoids, List.all_cons, Bool.and_eq_true, Bool.not_eq_true'] at h
    simp only [List.mem_cons, not_or]
    refine ⟨?_, ih h.2 hs⟩
    rintro rfl
    rw [hd] at h
    exact absurd h.1 (by simp)

end Verif

namespace Verif

/-! ### Small classes, character by character -/

/-- A class of few characters as single characters; other classes stay. -/
def CC.expand : CC → List CC
  | .set rs =>
    let l := rs.flatMap fun r => (List.range (r.2 + 1 - r.1)).map fun i => r.1 + i
    if l.length ≤ 8 then l.map CC.one else [.set rs]
  | cc => [cc]

theorem CC.expand_sound {cc : CC} {c : Nat} (h : cc.mem c = true) :
    ∃ k ∈ cc.expand, k.mem c = true := by
  unfold CC.expand
  split
  · next rs =>
    simp only
    split
    · simp only [CC.mem, CC.ranges, inRanges, List.any_eq_true, Bool.and_eq_true, Nat.ble_eq] at h
      obtain ⟨r, hr, h1, h2⟩ := h
      refine ⟨CC.one c, List.mem_map.2 ⟨c, List.mem_flatMap.2 ⟨r, hr, List.mem_map.2
        ⟨c - r.1, List.mem_range.2 (by omega), by omega⟩⟩, rfl⟩, CC.mem_one.2 rfl⟩
    · exact ⟨_, by simp, h⟩
  · exact ⟨_, by simp, h⟩

def expand : List CC → List (List CC)
  | [] => [[]]
  | k :: ks => k.expand.flatMap fun x => (expand ks).map (x :: ·)

theorem expand_sound {ks : List CC} {s : PyStr} (h : HasShape ks s) :
    ∃ ks' ∈ expand ks, HasShape ks' s := by
  induction ks generalizing s with
  | nil => exact ⟨[], by simp [expand], h⟩
  | cons k ks ih =>
    obtain ⟨c, t, rfl, hc, ht⟩ := h
    obtain ⟨x, hx, hxc⟩ := CC.expand_sound hc
    obtain ⟨ks', hk, hs⟩ := ih ht
    exact ⟨x :: ks', by simp only [expand, List.mem_flatMap, List.mem_map]
                        exact ⟨x, hx, ks', hk, rfl⟩, c, t, rfl, hxc, hs⟩

end Verif
