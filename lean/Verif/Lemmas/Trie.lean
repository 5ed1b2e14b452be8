/-
Sets of numbers as binary trees, to decide whether a long list has repetitions.
-/

namespace Verif

inductive Trie where
  | leaf
  | node (l r : Trie)

namespace Trie

/-- Puts the lowest `d` bits of `k` into the set; fails if they are in it. -/
def insert : Nat → Nat → Trie → Option Trie
  | 0, _, leaf => some (node leaf leaf)
  | 0, _, node _ _ => none
  | d + 1, k, leaf =>
    match (k >>> d) % 2 with
    | 0 => match insert d k leaf with
      | some l => some (node l leaf)
      | none => none
    | _ => match insert d k leaf with
      | some r => some (node leaf r)
      | none => none
  | d + 1, k, node l r =>
    match (k >>> d) % 2 with
    | 0 => match insert d k l with
      | some l => some (node l r)
      | none => none
    | _ => match insert d k r with
      | some r => some (node l r)
      | none => none

def insertAll (d : Nat) : List Nat → Trie → Option Trie
  | [], t => some t
  | k :: ks, t =>
    match insert d k t with
    | some t => insertAll d ks t
    | none => none

def has : Nat → Nat → Trie → Bool
  | _, _, leaf => false
  | 0, _, node _ _ => true
  | d + 1, k, node l r =>
    match (k >>> d) % 2 with
    | 0 => has d k l
    | _ => has d k r

theorem insert_has (d k : Nat) (t t' : Trie) (h : insert d k t = some t') :
    has d k t = false ∧ has d k t' = true ∧ ∀ j, has d j t = true → has d j t' = true := by
  induction d generalizing k t t' with
  | zero =>
    cases t with
    | leaf => cases h; exact ⟨rfl, rfl, fun j h => by cases h⟩
    | node => cases h
  | succ d ih =>
    cases t with
    | leaf =>
      unfold insert at h
      split at h
      · next hk =>
        split at h
        · next l hl =>
          cases h
          refine ⟨rfl, ?_, fun j h => by cases h⟩
          simp only [has, hk]
          exact (ih _ _ _ hl).2.1
        · cases h
      · next hk =>
        split at h
        · next l hl =>
          cases h
          refine ⟨rfl, ?_, fun j h => by cases h⟩
          unfold has
          split
          · next h0 => exact absurd h0 (by simpa using hk)
          · exact (ih _ _ _ hl).2.1
        · cases h
    | node a b =>
      unfold insert at h
      split at h
      · next hk =>
        split at h
        · next l hl =>
          cases h
          obtain ⟨h1, h2, h3⟩ := ih _ _ _ hl
          refine ⟨by simp only [has, hk]; exact h1, by simp only [has, hk]; exact h2, fun j hj => ?_⟩
          unfold has at hj ⊢
          split at hj
          · exact h3 _ hj
          · exact hj
        · cases h
      · next hk =>
        split at h
        · next r hr =>
          cases h
          obtain ⟨h1, h2, h3⟩ := ih _ _ _ hr
          have e : ∀ x y : Trie, has (d + 1) k (node x y) = has d k y := by
            intro x y
            rw [has]
            split
            · next h0 => exact absurd h0 (by simpa using hk)
            · rfl
          refine ⟨by rw [e]; exact h1, by rw [e]; exact h2, fun j hj => ?_⟩
          unfold has at hj ⊢
          split at hj
          · exact hj
          · exact h3 _ hj
        · cases h

/-- A list that can be put into a set without meeting a number twice has no repetition. -/
theorem nodup_of_insertAll (d : Nat) (ks : List Nat) (t t' : Trie) (h : insertAll d ks t = some t') :
    ks.Nodup ∧ ∀ k ∈ ks, has d k t = false := by
  induction ks generalizing t with
  | nil => simp
  | cons k ks ih =>
    unfold insertAll at h
    split at h
    · next t1 h1 =>
      obtain ⟨i1, i2, i3⟩ := insert_has _ _ _ _ h1
      obtain ⟨j1, j2⟩ := ih _ h
      refine ⟨List.nodup_cons.2 ⟨fun hk => ?_, j1⟩, ?_⟩
      · have := j2 k hk
        rw [i2] at this
        cases this
      · intro x hx
        rcases List.mem_cons.1 hx with rfl | hx
        · exact i1
        · cases hh : has d x t with
          | false => rfl
          | true =>
            have := j2 x hx
            rw [i3 x hh] at this
            cases this
    · cases h

end Trie

end Verif
