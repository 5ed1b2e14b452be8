import Verif.Lemmas.Engine
import Verif.Model.Metar

/-
C91: matching a pattern. `re.match`, `re.search`, `re.sub` and `match.group` of the model against
the ways in which a pattern fits a text (`Spec/Engine.lean`).
-/

namespace Verif.Props
open Verif Spec

/-- Different ways differ in a choice, and of any two one is preferred: the first way is unique. -/
theorem C91_choices {s : PyStr} {r : RE} {p q t : Nat} {w v : List Nat} {cs ds : Caps}
    (h1 : Way s r p w q cs) (h2 : Way s r p v t ds) :
    (w = v ∧ q = t ∧ cs = ds) ∨ (Preferred w v ∧ ¬ Preferred v w) ∨
      (Preferred v w ∧ ¬ Preferred w v) := by
  rcases way_compare h1 h2 with h | h | h
  · exact .inl h
  · exact .inr (.inl ⟨h, fun h' => preferred_asymm h h'⟩)
  · exact .inr (.inr ⟨h, fun h' => preferred_asymm h h'⟩)

/-- `re.match` returns the end and the captures of the first way from the start of the text, and
`None` exactly when the pattern fits in no way there. -/
theorem C91_match (r : RE) (s : PyStr) :
    (∀ m, r.match s = some m ↔ m.string = s ∧ FirstWay s r 0 m.stop m.caps) ∧
      (r.match s = none ↔ NoWay s r 0) :=
  ⟨fun _ => match_iff, match_none_iff⟩

/-- `match.group("name")` is the text between start and end of the latest capture of that name, and
`None` when the name was not captured. -/
theorem C91_group (m : Match) (n : Cap) :
    (∀ x, m.group n = some x ↔ Captured m.string m.caps n x) ∧
      (m.group n = none ↔ ∀ c ∈ m.caps, c.1 ≠ n) :=
  ⟨fun _ => group_some_iff, group_none_iff⟩

/-- `re.search` with a pattern without `^` takes the first way from the leftmost position of the
whole text where there is one; its groups are pieces of the whole text. -/
theorem C91_search {r : RE} (hr : NoCaret r) (s : PyStr) :
    (∀ m, r.search s = some m → ∃ k q cs, k ≤ s.length ∧ (∀ j < k, NoWay s r j) ∧
        FirstWay s r k q cs ∧ (∀ n x, m.group n = some x ↔ Captured s cs n x)) ∧
      (r.search s = none ↔ ∀ k ≤ s.length, NoWay s r k) := by
  refine ⟨fun m h => ?_, ?_⟩
  · obtain ⟨k, hk, h1, h2, h3⟩ := (search_iff hr).1 h
    refine ⟨k, _, _, hk, h1, h3, fun n x => ?_⟩
    rw [group_some_iff, h2]
    exact captured_shift
  · rw [search_none]
    constructor
    · exact fun h k hk => (noWay_shift hr hk).1 (match_none_iff.1 (h k hk))
    · exact fun h k hk => match_none_iff.2 ((noWay_shift hr hk).2 (h k hk))

/-- `re.sub(r, repl, s, count=n)` replaces the successive leftmost first ways of the whole text,
`n` of them at most when `n` is not 0, and leaves everything else. -/
theorem C91_sub {r : RE} (hr : NoCaret r) (he : NonEmpty r) (repl s : PyStr) (n : Nat)
    (out : PyStr) :
    r.sub repl s n = out ↔
      Substituted s r repl (if n = 0 then none else some n) 0 out := by
  rw [substituted_iff hr he (Nat.zero_le _), RE.sub, List.drop_zero]
  exact eq_comm

/-- The patterns that the library passes to `re.search` and `re.sub` (parser.py 17, 40, 42, 62;
report.py 22; wind.py 209, weather.py 91, recent_weather.py 36) and the keywords of
`split_sentence` (split.py 48) have no `^` and take at least one character. -/
theorem C91_patterns :
    (∀ r ∈ [sanVisRE, sanWsAllRE, sanWsRE, sanProbRE, blanksRE, spaces2RE],
      NoCaret r ∧ NonEmpty r) ∧
    ∀ kw : PyStr, kw ≠ [] → NoCaret (RE.ofLit kw) ∧ NonEmpty (RE.ofLit kw) := by
  refine ⟨?_, fun kw h => ?_⟩
  · have h1 : ∀ r ∈ [sanVisRE, sanWsAllRE, sanWsRE, sanProbRE, blanksRE, spaces2RE],
        0 < r.least := by decide
    intro r hr
    refine ⟨?_, nonEmpty_of_least (h1 r hr)⟩
    simp only [List.mem_cons, List.not_mem_nil, or_false] at hr
    rcases hr with rfl | rfl | rfl | rfl | rfl | rfl <;>
      simp [NoCaret, sanVisRE, sanWsAllRE, sanWsRE, sanProbRE, blanksRE, spaces2RE]
  · have h1 : ∀ kw : PyStr, NoCaret (RE.ofLit kw) := by
      intro kw
      induction kw with
      | nil => trivial
      | cons c t ih =>
        cases t with
        | nil => trivial
        | cons d t => exact ⟨trivial, ih⟩
    refine ⟨h1 kw, nonEmpty_of_least ?_⟩
    cases kw with
    | nil => exact absurd rfl h
    | cons c t =>
      cases t with
      | nil => simp [RE.ofLit, RE.least]
      | cons d t => simp only [RE.ofLit, RE.least]; omega

/-! ### Cases -/

/-- `\d{2,3}` on `1234`: three characters are taken, though two would do. -/
example : FirstWay py!"1234" (.rep .digit 2 (some 3)) 0 3 [] := by
  have := ((C91_match (.rep .digit 2 (some 3)) py!"1234").1 ⟨py!"1234", 3, []⟩).1 (by decide)
  exact this.2

/-- `A|AB` on `AB`: the left alternative is taken although the right one is longer. -/
example : FirstWay py!"AB" (re! [r"A|AB"]) 0 1 [] ∧ Way py!"AB" (re! [r"A|AB"]) 0 [0] 2 [] := by
  refine ⟨(((C91_match (re! [r"A|AB"]) py!"AB").1 ⟨py!"AB", 1, []⟩).1 (by decide)).2, ?_⟩
  exact .right (.seq (.chr (c := 65) (by decide) (by decide))
    (.chr (c := 66) (by decide) (by decide)))

/-- A search further to the right, with its groups in the whole text. -/
example : (sanVisRE.search py!"KJFK 1 1/2SM").bind (fun m => m.group .frac) = some py!"1/2SM" := by
  decide

/-- A substitution of two runs of blanks. -/
example : Substituted py!"A  B   C" spaces2RE py!" " none 0 py!"A B C" :=
  (C91_sub (C91_patterns.1 spaces2RE (by simp)).1 (C91_patterns.1 spaces2RE (by simp)).2 _ _ 0 _).1
    (by decide)

end Verif.Props
