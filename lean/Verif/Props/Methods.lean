import Verif.Lemmas.Methods
import Verif.Props.Lists
import Verif.Model.Taf

/-
C94: the methods of `str` and `dict`.
-/

namespace Verif.Props
open Verif Verif.Spec

/-- C94. `s.replace(old, new)` with a text to look for that is not empty. -/
theorem C94_replace (s old new t : PyStr) (h : old ≠ []) : t = replace s old new ↔ ReplacedAll old new s t :=
  ⟨fun e => e ▸ replace_all new h s, fun hr => hr.unique (replace_all new h s)⟩

/-- Overlapping occurrences: the left one is taken. -/
example : replace py!"aaaba" py!"aa" py!"x" = py!"xaba" ∧
    ReplacedAll py!"aa" py!"x" py!"aaaba" py!"xaba" ∧ ¬ ReplacedAll py!"aa" py!"x" py!"aaaba" py!"axba" := by
  have e : replace py!"aaaba" py!"aa" py!"x" = py!"xaba" := by decide +kernel
  refine ⟨e, (C94_replace _ _ _ _ (by decide)).1 e.symm, fun h => ?_⟩
  have := (C94_replace _ _ _ _ (by decide)).2 h
  rw [e] at this
  revert this
  decide +kernel

/-- C94. `s.strip()`. -/
theorem C94_strip (s t : PyStr) : t = strip s ↔ Stripped s t :=
  ⟨fun e => e ▸ strip_stripped s, fun h => h.eq⟩

/-- All white space counts, not only the blank. -/
example : strip (9 :: py!" a b" ++ [0x3000, 10]) = py!"a b" := by decide +kernel

theorem joined_unique {sep : PyStr} {ws : List PyStr} {s t : PyStr} (h : Joined sep ws s) (h' : Joined sep ws t) : s = t := by
  induction h generalizing t with
  | none => cases h'; rfl
  | one => cases h'; rfl
  | more a b _ ih =>
    cases h' with
    | more _ _ h => rw [ih h]

/-- C94. `sep.join(ws)`, and `s.split(sep)` with one character as separator. -/
theorem C94_join_split (sep : PyStr) (ws : List PyStr) (s : PyStr) (c : Nat) :
    (s = join sep ws ↔ Joined sep ws s) ∧
    (ws = splitC c s ↔ ws ≠ [] ∧ (∀ w ∈ ws, c ∉ w) ∧ Joined [c] ws s) := by
  have hj : ∀ (sep : PyStr) ws s, s = join sep ws ↔ Joined sep ws s := fun sep ws s =>
    ⟨fun e => e ▸ join_joined sep ws, fun h => joined_unique h (join_joined sep ws)⟩
  refine ⟨hj sep ws s, ?_, ?_⟩
  · rintro rfl
    exact ⟨splitC_ne c s, splitC_no_sep s, (hj _ _ _).1 (join_splitC s).symm⟩
  · rintro ⟨hn, hc, h⟩
    rw [(hj _ _ _).2 h, splitC_join ws hn hc]

/-- Empty words are kept. -/
example : splitC 32 py!"a  b " = [py!"a", [], py!"b", []] ∧ join py!" | " [py!"a", py!"b"] = py!"a | b" := by
  decide +kernel

/-- C94. `str(n)`, and `"{:0wd}".format(n)`: zeros in front up to the width, nothing cut off. -/
theorem C94_number (n w : Nat) (t : PyStr) :
    (t = natStr n ↔ DecimalText n t) ∧
    (t = padNat w n ↔ ∃ k u, DecimalText n u ∧ t = List.replicate k 48 ++ u ∧ k = w - u.length) := by
  refine ⟨⟨fun e => e ▸ natStr_decimal n, fun h => h.eq⟩, ?_, ?_⟩
  · rintro rfl
    exact ⟨_, natStr n, natStr_decimal n, rfl, rfl⟩
  · rintro ⟨k, u, hu, rfl, rfl⟩
    rw [hu.eq]
    rfl

example : natStr 0 = py!"0" ∧ natStr 1013 = py!"1013" ∧ padNat 4 250 = py!"0250" ∧ padNat 4 25000 = py!"25000" := by
  decide +kernel

/-- C94. The same for numbers of either sign; the sign counts in the width. -/
theorem C94_signed (z : Int) (w : Nat) (t : PyStr) :
    (t = intStr z ↔ ∃ s u, (s = if z < 0 then py!"-" else []) ∧ DecimalText z.natAbs u ∧ t = s ++ u) ∧
    (t = padInt w z ↔ ∃ s k u, (s = if z < 0 then py!"-" else []) ∧ DecimalText z.natAbs u ∧
      t = s ++ List.replicate k 48 ++ u ∧ k = w - (s ++ u).length) := by
  cases z with
  | ofNat n =>
    have hn : ¬ Int.ofNat n < 0 := by simp
    simp only [if_neg hn]
    refine ⟨⟨?_, ?_⟩, ?_, ?_⟩
    · rintro rfl; exact ⟨_, _, rfl, natStr_decimal n, rfl⟩
    · rintro ⟨s, u, rfl, hu, rfl⟩; rw [hu.eq]; rfl
    · rintro rfl; exact ⟨_, _, _, rfl, natStr_decimal n, rfl, rfl⟩
    · rintro ⟨s, k, u, rfl, hu, rfl, rfl⟩; rw [hu.eq]; rfl
  | negSucc n =>
    have hn : Int.negSucc n < 0 := Int.negSucc_lt_zero n
    simp only [if_pos hn]
    have hl : ∀ u : PyStr, w - 1 - u.length = w - (py!"-" ++ u).length := by
      intro u
      simp only [List.length_append, List.length_cons, List.length_nil]
      omega
    refine ⟨⟨?_, ?_⟩, ?_, ?_⟩
    · rintro rfl; exact ⟨_, _, rfl, natStr_decimal (n + 1), rfl⟩
    · rintro ⟨s, u, rfl, hu, rfl⟩; rw [hu.eq]; rfl
    · rintro rfl; exact ⟨_, _, natStr (n + 1), rfl, natStr_decimal (n + 1), rfl, hl _⟩
    · rintro ⟨s, k, u, rfl, hu, rfl, rfl⟩; rw [hu.eq, ← hl]; rfl

example : padInt 2 7 = py!"07" ∧ padInt 3 (-7) = py!"-07" ∧ padInt 2 (-12) = py!"-12" := by decide +kernel

/-! ### Dictionaries -/

/-- The dictionaries that are literals in the source. A literal with a key twice would have the later
value; a search from the front would find the earlier. -/
def literals : List (List (PyStr × PyStr)) :=
  [typesTable, modifiersTable, changeTranslations, skyCover, cloudTypes, rwyNames, rvrLimits, rvrTrends,
   intensityTable, descriptionTable, precipitationTable, obscurationTable, otherTable, seaStateTable,
   runwayDeposits, runwayContamination, depositDepth, surfaceFriction]

theorem literals_distinct : ∀ d ∈ literals, Distinct d := by
  unfold Distinct
  decide +kernel

theorem compass_distinct : Distinct compassDirs := by
  unfold Distinct
  decide +kernel

/-- C94. `d.get(k)` for these: no key is there twice, so that there is one entry for a key at most, and
it is found. -/
theorem C94_get (d : List (PyStr × PyStr)) (h : d ∈ literals) (k : PyStr) (o : Option PyStr) :
    (o = dget d k ↔ Entry d k o) ∧ ∀ v w, (k, v) ∈ d → (k, w) ∈ d → v = w :=
  ⟨⟨fun e => e ▸ lookup_entry d k, entry_lookup (literals_distinct d h)⟩,
    fun _ _ => entry_unique (literals_distinct d h)⟩

/-- C94. The table of directions. -/
theorem C94_compass (k : PyStr) (o : Option (Rat × Rat)) : o = compassDirs.lookup k ↔ Entry compassDirs k o :=
  ⟨fun e => e ▸ lookup_entry _ k, entry_lookup compass_distinct⟩

example : skyCover ∈ literals ∧ dget skyCover py!"OVC" = some py!"overcast" ∧ dget skyCover py!"0VC" = none := by
  decide +kernel

/-- C94. `d[k] = v` and `d.update(e)`: an entry that is there is changed in its place, a new one comes
last. -/
theorem C94_update (d : List (PyStr × PyVal)) (h : Distinct d) (k : PyStr) (v : PyVal) (e f : List (PyStr × PyVal)) :
    (f = dset d k v ↔ Put d k v f) ∧ (f = dupdate d e ↔ PutAll d e f) ∧ Distinct (dupdate d e) := by
  refine ⟨⟨fun e => e ▸ dset_put h k v, fun hp => hp.unique (dset_put h k v)⟩,
    ⟨fun e' => e' ▸ dupdate_putAll h e, fun hp => hp.unique (dupdate_putAll h e)⟩, ?_⟩
  induction e generalizing d with
  | nil => exact h
  | cons p e ih => exact ih (dset d p.1 p.2) (dset_put h p.1 p.2).distinct

example : dupdate [(py!"a", .str py!"1"), (py!"b", .str py!"2")] [(py!"c", .str py!"3"), (py!"a", .str py!"4")] =
    [(py!"a", .str py!"4"), (py!"b", .str py!"2"), (py!"c", .str py!"3")] := by
  rfl

end Verif.Props
