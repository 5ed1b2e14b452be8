import Verif.Model.Stations.All
import Verif.Spec.Stations
import Verif.Lemmas.Trie

/-
Checking the rows of the tables.
-/

namespace Verif
open Spec

def num2 (a b : Nat) : Nat := 10 * (a - 48) + (b - 48)

/-- Text compared by the kernel. -/
def sameText : PyStr → PyStr → Bool
  | [], [] => true
  | a :: s, b :: t => Nat.beq a b && sameText s t
  | _, _ => false

theorem sameText_eq {s t : PyStr} (h : sameText s t = true) : s = t := by
  induction s generalizing t with
  | nil => cases t with
    | nil => rfl
    | cons => cases h
  | cons a s ih => cases t with
    | nil => cases h
    | cons b t =>
      simp only [sameText, Bool.and_eq_true] at h
      rw [Nat.eq_of_beq_eq_true h.1, ih h.2]

def latitudeOk (s : PyStr) : Bool :=
  match s with
  | [a, b, _, m, n, c] =>
    let d := num2 a b
    let k := num2 m n
    (Nat.beq c 78 || Nat.beq c 83) && sameText s (padNat 2 d ++ 46 :: padNat 2 k ++ [c]) && Nat.ble (k + 1) 60 &&
      Nat.ble (60 * d + k) 5400
  | _ => false

def longitudeOk (s : PyStr) : Bool :=
  match s with
  | [x, a, b, _, m, n, c] =>
    let d := 100 * (x - 48) + num2 a b
    let k := num2 m n
    (Nat.beq c 69 || Nat.beq c 87) && sameText s (padNat 3 d ++ 46 :: padNat 2 k ++ [c]) && Nat.ble (k + 1) 60 &&
      Nat.ble (60 * d + k) 10800
  | _ => false

def digitsNum (s : PyStr) : Nat := s.foldl (fun n c => 10 * n + (c - 48)) 0

def elevationOk (s : PyStr) : Bool :=
  match s with
  | 45 :: t =>
    match digitsNum t with
    | 0 => false
    | n + 1 => sameText t (natStr (n + 1)) && Nat.ble (n + 1) 430
  | _ => sameText s (natStr (digitsNum s)) && Nat.ble (digitsNum s) 4500

def capital (c : Nat) : Bool := Nat.ble 65 c && Nat.ble c 90

def capitalOrDigit (c : Nat) : Bool := capital c || (Nat.ble 48 c && Nat.ble c 57)

def icaoOk (s : PyStr) : Bool :=
  match s with
  | [a, b, c, d] => capital a && capitalOrDigit b && capitalOrDigit c && capitalOrDigit d
  | _ => false

def iataOk (s : PyStr) : Bool :=
  match s with
  | [a, b, c] => capitalOrDigit a && capitalOrDigit b && capitalOrDigit c
  | _ => false

def synopOk (s : PyStr) : Bool :=
  match s with
  | [_, _, _, _, _] => Nat.ble (digitsNum s) 99999 && sameText s (padNat 5 (digitsNum s))
  | _ => false

/-- Whether a row is in order. -/
def rowOk (r : StationRow) : Bool :=
  (sameText r.icao noCode || (icaoOk r.icao && !sameText (r.icao.take 3) py!"RMK")) &&
    (sameText r.iata noCode || iataOk r.iata) && (sameText r.synop noCode || synopOk r.synop) &&
    latitudeOk r.latitude && (sameText r.icao py!"CYYW" || longitudeOk r.longitude) && elevationOk r.elevation

def key (s : PyStr) : Nat := s.foldl (fun n c => 64 * n + (c - 48)) 0

/-- The keys of a column, those that are not missing. -/
def keysOf (f : StationRow → PyStr) (key : PyStr → Nat) : List StationRow → List Nat
  | [] => []
  | r :: rs => if sameText (f r) noCode then keysOf f key rs else key (f r) :: keysOf f key rs

def lostCountries : List PyStr := [py!"CS", py!"DN", py!"TP", py!"AN"]

/-- Whether a country is in one of the two lists, but not in both. -/
noncomputable def countryOk (s : PyStr) : Bool :=
  if lostCountries.any (sameText s) then countriesTable.all fun x => !sameText x.1 s
  else countriesTable.any fun x => sameText x.1 s

/-- Rows of a country mostly follow each other. -/
noncomputable def countriesOk : PyStr → List StationRow → Bool
  | _, [] => true
  | c, r :: rs => if sameText r.country c then countriesOk c rs else countryOk r.country && countriesOk r.country rs

/-! ### What the checks mean -/

theorem sameText_self (s : PyStr) : sameText s s = true := by
  induction s with
  | nil => rfl
  | cons a s ih => simp only [sameText, ih, Bool.and_true]; exact Nat.beq_refl a

theorem sameText_false {s t : PyStr} (h : sameText s t = false) : s ≠ t := by
  rintro rfl
  rw [sameText_self] at h
  cases h

theorem latitude_of {s : PyStr} (h : latitudeOk s = true) : Latitude s := by
  unfold latitudeOk at h
  split at h
  · next a b p m n c =>
    simp only [Bool.and_eq_true, Bool.or_eq_true] at h
    obtain ⟨⟨⟨h1, h2⟩, h3⟩, h4⟩ := h
    refine ⟨num2 a b, num2 m n, c, ?_, sameText_eq h2, Nat.le_of_ble_eq_true h3, Nat.le_of_ble_eq_true h4⟩
    rcases h1 with h1 | h1 <;> simp [Nat.eq_of_beq_eq_true h1]
  · cases h

theorem longitude_of {s : PyStr} (h : longitudeOk s = true) : Longitude s := by
  unfold longitudeOk at h
  split at h
  · next x a b p m n c =>
    simp only [Bool.and_eq_true, Bool.or_eq_true] at h
    obtain ⟨⟨⟨h1, h2⟩, h3⟩, h4⟩ := h
    refine ⟨100 * (x - 48) + num2 a b, num2 m n, c, ?_, sameText_eq h2, Nat.le_of_ble_eq_true h3,
      Nat.le_of_ble_eq_true h4⟩
    rcases h1 with h1 | h1 <;> simp [Nat.eq_of_beq_eq_true h1]
  · cases h

theorem elevation_of {s : PyStr} (h : elevationOk s = true) : Elevation s := by
  unfold elevationOk at h
  split at h
  · next t =>
    split at h
    · cases h
    · next n hn =>
      simp only [Bool.and_eq_true] at h
      have := Nat.le_of_ble_eq_true h.2
      exact ⟨.negSucc n, by rw [sameText_eq h.1]; rfl, by omega, by omega⟩
  · simp only [Bool.and_eq_true] at h
    have := Nat.le_of_ble_eq_true h.2
    exact ⟨digitsNum s, sameText_eq h.1, by omega, by omega⟩

theorem capital_of {c : Nat} (h : capital c = true) : 65 ≤ c ∧ c ≤ 90 := by
  simp only [capital, Bool.and_eq_true] at h
  exact ⟨Nat.le_of_ble_eq_true h.1, Nat.le_of_ble_eq_true h.2⟩

theorem capitalOrDigit_of {c : Nat} (h : capitalOrDigit c = true) : (65 ≤ c ∧ c ≤ 90) ∨ (48 ≤ c ∧ c ≤ 57) := by
  simp only [capitalOrDigit, Bool.or_eq_true, Bool.and_eq_true] at h
  rcases h with h | h
  · exact .inl (capital_of h)
  · exact .inr ⟨Nat.le_of_ble_eq_true h.1, Nat.le_of_ble_eq_true h.2⟩

theorem icao_of {s : PyStr} (h : icaoOk s = true) : StationCode s := by
  unfold icaoOk at h
  split at h
  · next a b c d =>
    simp only [Bool.and_eq_true] at h
    obtain ⟨⟨⟨h1, h2⟩, h3⟩, h4⟩ := h
    refine ⟨rfl, ?_, fun x hx => by cases hx; exact capital_of h1⟩
    simp only [List.forall_mem_cons, List.not_mem_nil, false_imp_iff, implies_true, and_true]
    exact ⟨.inl (capital_of h1), capitalOrDigit_of h2, capitalOrDigit_of h3, capitalOrDigit_of h4⟩
  · cases h

theorem iata_of {s : PyStr} (h : iataOk s = true) : IataCode s := by
  unfold iataOk at h
  split at h
  · simp only [Bool.and_eq_true] at h
    obtain ⟨⟨h1, h2⟩, h3⟩ := h
    refine ⟨rfl, ?_⟩
    simp only [List.forall_mem_cons, List.not_mem_nil, false_imp_iff, implies_true, and_true]
    exact ⟨capitalOrDigit_of h1, capitalOrDigit_of h2, capitalOrDigit_of h3⟩
  · cases h

theorem synop_of {s : PyStr} (h : synopOk s = true) : SynopCode s := by
  unfold synopOk at h
  split at h
  · simp only [Bool.and_eq_true] at h
    have := Nat.le_of_ble_eq_true h.1
    exact ⟨_, sameText_eq h.2, by omega⟩
  · cases h

/-- A code that is not missing is found in one row only. -/
theorem keysOf_unique {f : StationRow → PyStr} {key : PyStr → Nat} {l : List StationRow}
    (h : (keysOf f key l).Nodup) {x y : StationRow} (hx : x ∈ l) (hy : y ∈ l) (he : f x = f y) (hn : f x ≠ noCode) :
    x = y := by
  have mem : ∀ {l : List StationRow} {x : StationRow}, x ∈ l → f x ≠ noCode → key (f x) ∈ keysOf f key l := by
    intro l
    induction l with
    | nil => intro x hx; cases hx
    | cons r l ih =>
      intro x hx hn
      unfold keysOf
      split
      · next hr =>
        rcases List.mem_cons.1 hx with rfl | hx
        · exact absurd (sameText_eq hr) hn
        · exact ih hx hn
      · rcases List.mem_cons.1 hx with rfl | hx
        · simp
        · exact List.mem_cons_of_mem _ (ih hx hn)
  induction l with
  | nil => cases hx
  | cons r l ih =>
    unfold keysOf at h
    split at h
    · next hr =>
      have hr := sameText_eq hr
      rcases List.mem_cons.1 hx with rfl | hx
      · exact absurd hr hn
      · rcases List.mem_cons.1 hy with rfl | hy
        · exact absurd (he.trans hr) hn
        · exact ih h hx hy
    · obtain ⟨h1, h2⟩ := List.nodup_cons.1 h
      rcases List.mem_cons.1 hx with rfl | hx'
      · rcases List.mem_cons.1 hy with rfl | hy
        · rfl
        · exact absurd (he ▸ mem hy (he ▸ hn)) h1
      · rcases List.mem_cons.1 hy with rfl | hy
        · exact absurd (he ▸ mem hx' hn) h1
        · exact ih h2 hx' hy

theorem countriesOk_mem {c : PyStr} {l : List StationRow} (hc : countryOk c = true) (h : countriesOk c l = true) :
    ∀ r ∈ l, countryOk r.country = true := by
  induction l generalizing c with
  | nil => simp
  | cons r l ih =>
    unfold countriesOk at h
    intro x hx
    split at h
    · next he =>
      rcases List.mem_cons.1 hx with rfl | hx
      · rw [sameText_eq he]; exact hc
      · exact ih hc h x hx
    · simp only [Bool.and_eq_true] at h
      rcases List.mem_cons.1 hx with rfl | hx
      · exact h.1
      · exact ih h.1 h.2 x hx

end Verif
