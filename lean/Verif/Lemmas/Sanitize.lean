import Verif.Lemmas.Blanks
import Verif.Lemmas.Cut
import Verif.Model.Utils
import Verif.Spec.Sanitize

/-
The sanitisers of `utils/parser.py`.
-/

namespace Verif
open Spec

/-! ### Patterns that are sequences of characters -/

/-- A sequence of character classes. -/
def RE.chrs : List CC → RE
  | [] => .eps
  | [k] => .chr k
  | k :: ks => .seq (.chr k) (RE.chrs ks)

/-- A sequence of character classes, then a pattern. -/
def RE.thenRE (ks : List CC) (b : RE) : RE := ks.foldr (fun k b => .seq (.chr k) b) b

/-- The text begins with characters of these classes. -/
def front : List CC → PyStr → Bool
  | [], _ => true
  | _ :: _, [] => false
  | k :: ks, c :: t => k.mem c && front ks t

theorem front_drop {k : CC} {ks : List CC} {s : PyStr} {p : Nat} :
    front (k :: ks) (s.drop p) =
      ((match s[p]? with | some c => k.mem c | none => false) && front ks (s.drop (p + 1))) := by
  by_cases hp : p < s.length
  · rw [List.drop_eq_getElem_cons hp, List.getElem?_eq_getElem hp]
    rfl
  · rw [List.drop_eq_nil_of_le (by omega), List.getElem?_eq_none (by omega)]
    rfl

theorem RE.m_thenRE (s : PyStr) (ks : List CC) (b : RE) (st : St) :
    RE.m s (RE.thenRE ks b) st =
      if front ks (s.drop st.1) then RE.m s b (st.1 + ks.length, st.2) else [] := by
  induction ks generalizing st with
  | nil => simp [RE.thenRE, front]
  | cons k ks ih =>
    show (RE.m s (.chr k) st).flatMap (RE.m s (RE.thenRE ks b)) = _
    rw [front_drop, RE.m]
    cases s[st.1]? with
    | none => rfl
    | some c =>
      simp only
      by_cases hc : k.mem c = true
      · simp only [hc, if_true, List.flatMap_cons, List.flatMap_nil, List.append_nil, ih,
          Bool.true_and, List.length_cons]
        rw [show st.1 + 1 + ks.length = st.1 + (ks.length + 1) by omega]
      · simp [hc]

theorem RE.m_chrs (s : PyStr) (ks : List CC) (st : St) :
    RE.m s (RE.chrs ks) st = if front ks (s.drop st.1) then [(st.1 + ks.length, st.2)] else [] := by
  have e : ∀ ks st, RE.m s (RE.chrs ks) st = RE.m s (RE.thenRE ks .eps) st := by
    intro ks
    induction ks with
    | nil => intro st; rfl
    | cons k ks ih =>
      intro st
      cases ks with
      | nil =>
        show RE.m s (.chr k) st = (RE.m s (.chr k) st).flatMap (RE.m s .eps)
        have : RE.m s .eps = fun st => [st] := rfl
        rw [this]
        simp
      | cons k' ks =>
        show (RE.m s (.chr k) st).flatMap (RE.m s (RE.chrs (k' :: ks))) =
          (RE.m s (.chr k) st).flatMap (RE.m s (RE.thenRE (k' :: ks) .eps))
        rw [funext ih]
  rw [e, RE.m_thenRE]
  rfl

/-- A text that begins with characters of these classes, taken apart. -/
theorem front_iff {ks : List CC} {s : PyStr} :
    front ks s = true ↔ ∃ o post, s = o ++ post ∧ HasShape ks o := by
  induction ks generalizing s with
  | nil => exact ⟨fun _ => ⟨[], s, rfl, rfl⟩, fun _ => rfl⟩
  | cons k ks ih =>
    constructor
    · intro h
      cases s with
      | nil => cases h
      | cons c t =>
        simp only [front, Bool.and_eq_true] at h
        obtain ⟨o, post, rfl, ho⟩ := ih.1 h.2
        exact ⟨c :: o, post, rfl, c, o, rfl, h.1, ho⟩
    · rintro ⟨o, post, rfl, c, o, rfl, hc, ho⟩
      simp only [List.cons_append, front, Bool.and_eq_true]
      exact ⟨hc, ih.2 ⟨o, post, rfl, ho⟩⟩

/-! ### One replacement -/

/-- What is needed of a pattern and a replacement to implement a rule. -/
structure Implements (r : RE) (f : Match → PyStr) (R : Rule) : Prop where
  sound : ∀ s m, r.match s = some m → ∃ o post, s = o ++ post ∧ R o post (f m) ∧ m.stop = o.length
  complete : ∀ o post new, R o post new → r.match (o ++ post) ≠ none
  nonempty : ∀ o post new, R o post new → o ≠ []

theorem Implements.absent {r : RE} {f : Match → PyStr} {R : Rule} (h : Implements r f R) {s : PyStr}
    (hs : r.search s = none) : Absent R s := by
  induction s with
  | nil =>
    intro pre o post new e hR
    have : pre = [] ∧ o = [] ∧ post = [] := by simpa using e.symm
    obtain ⟨rfl, rfl, rfl⟩ := this
    exact h.complete _ _ _ hR hs
  | cons c t ih =>
    unfold RE.search at hs
    split at hs
    · cases hs
    · next hm =>
      intro pre o post new e hR
      cases pre with
      | nil =>
        rw [List.nil_append] at e
        rw [e] at hm
        exact h.complete _ _ _ hR hm
      | cons d pre =>
        simp only [List.cons_append, List.cons.injEq] at e
        exact ih hs pre o post new e.2 hR

theorem Implements.first {r : RE} {f : Match → PyStr} {R : Rule} (h : Implements r f R) {s : PyStr}
    {m : Match} (hs : r.search s = some m) : First R s (r.sub (f m) s 1) := by
  show First R s (r.subGo (f m) (some 1) 0 s)
  have here : ∀ s : PyStr, r.match s = some m → First R s (r.subGo (f m) (some 1) 0 s) := by
    intro s hm
    obtain ⟨o, post, rfl, hR, hstop⟩ := h.sound _ _ hm
    have ho := h.nonempty _ _ _ hR
    refine ⟨[], o, post, f m, rfl, hR, ?_, by simp⟩
    rw [RE.subGo_some hm (by rw [hstop]; cases o <;> simp_all) (by simp) (by simp [ho]), hstop]
    simp only [Option.map_some, Nat.sub_self, List.drop_left, RE.subGo_zero, List.nil_append]
  induction s with
  | nil => exact here _ hs
  | cons c t ih =>
    unfold RE.search at hs
    split at hs
    · next m' hm =>
      cases hs
      exact here _ hm
    · next hm =>
      obtain ⟨pre, o, post, new, e, hR, e', hmin⟩ := ih hs
      rw [RE.subGo_none hm, e']
      refine ⟨c :: pre, o, post, new, by rw [e]; rfl, hR, rfl, ?_⟩
      intro pre' o' post' new' e2 hR'
      cases pre' with
      | nil =>
        rw [List.nil_append] at e2
        rw [e2] at hm
        exact absurd hm (h.complete _ _ _ hR')
      | cons d pre' =>
        simp only [List.cons_append, List.cons.injEq] at e2
        have := hmin pre' o' post' new' e2.2 hR'
        simp; omega

theorem Implements.loop {r : RE} {f : Match → PyStr} {R : Rule} (h : Implements r f R)
    {step : PyStr → Option PyStr}
    (hstep : ∀ s, step s = match r.search s with | none => none | some m => some (r.sub (f m) s 1))
    (n : Nat) (s : PyStr) : UpTo R n s (loopUpTo step n s) := by
  induction n generalizing s with
  | zero => exact .stop s
  | succ n ih =>
    unfold loopUpTo
    rw [hstep]
    cases hs : r.search s with
    | none => exact .done (h.absent hs)
    | some m => exact .step (h.first hs) (ih _)

theorem Implements.everywhere {r : RE} {f : Match → PyStr} {R : Rule} (h : Implements r f R)
    {repl : PyStr} (hf : ∀ m, f m = repl) (s : PyStr) : Everywhere R s (r.sub repl s 0) := by
  show Everywhere R s (r.subGo repl none 0 s)
  generalize hn : s.length = n
  induction n using Nat.strongRecOn generalizing s with
  | ind n ih =>
    cases s with
    | nil => rw [RE.subGo_nil]; exact .nil
    | cons c t =>
      cases hm : r.match (c :: t) with
      | none =>
        rw [RE.subGo_none hm]
        refine .skip ?_ (ih t.length (by simp at hn; omega) t rfl)
        intro o post new e hR
        rw [e] at hm
        exact h.complete _ _ _ hR hm
      | some m =>
        obtain ⟨o, post, e, hR, hstop⟩ := h.sound _ _ hm
        have ho := h.nonempty _ _ _ hR
        have hl : 0 < o.length := by cases o <;> simp_all
        rw [RE.subGo_some hm (by omega) (by simp) (by simp), hstop]
        rw [e] at hn ⊢
        rw [hf] at hR
        rw [List.drop_left]
        refine .hit hR (ih post.length ?_ post rfl)
        rw [List.length_append] at hn
        omega

/-! ### The four patterns -/

theorem space_mem (c : Nat) : CC.space.mem c = isSpace c := rfl
theorem digit_mem (c : Nat) : CC.digit.mem c = isDigit c := rfl

theorem shape_cons {k : CC} {ks : List CC} {o : PyStr} :
    HasShape (k :: ks) o ↔ ∃ c t, o = c :: t ∧ k.mem c = true ∧ HasShape ks t := Iff.rfl

theorem shape_nil {o : PyStr} : HasShape [] o ↔ o = [] := Iff.rfl

theorem one_mem {c d : Nat} : (CC.set [(c, c)]).mem d = true ↔ d = c := by
  rw [CC.mem_lit, decide_eq_true_eq]

theorem drop_append_len {o post : PyStr} {n : Nat} (h : o.length = n) : (o ++ post).drop n = post := by
  subst h; exact List.drop_left

theorem sanWsAll_implements : Implements sanWsAllRE (fun _ => py!"WS_ALL_RWY") wsAllRule := by
  have hm : ∀ s, sanWsAllRE.match s = if front [CC.set [(87, 87)], CC.set [(83, 83)], .space,
      CC.set [(65, 65)], CC.set [(76, 76)], CC.set [(76, 76)], .space, CC.set [(82, 82)],
      CC.set [(87, 87)], CC.set [(89, 89)]] s then some ⟨s, 10, []⟩ else none := by
    intro s
    have := RE.m_chrs s [CC.set [(87, 87)], CC.set [(83, 83)], .space,
      CC.set [(65, 65)], CC.set [(76, 76)], CC.set [(76, 76)], .space, CC.set [(82, 82)],
      CC.set [(87, 87)], CC.set [(89, 89)]] (0, [])
    unfold RE.match
    rw [show sanWsAllRE = RE.chrs [CC.set [(87, 87)], CC.set [(83, 83)], .space,
      CC.set [(65, 65)], CC.set [(76, 76)], CC.set [(76, 76)], .space, CC.set [(82, 82)],
      CC.set [(87, 87)], CC.set [(89, 89)]] from rfl, this]
    simp only [List.drop_zero]
    split <;> rfl
  refine ⟨?_, ?_, ?_⟩
  · intro s m h
    rw [hm] at h
    split at h
    · next hf =>
      cases h
      obtain ⟨o, post, rfl, ho⟩ := front_iff.1 hf
      refine ⟨o, post, rfl, ?_, by rw [ho.length]; rfl⟩
      simp only [shape_cons, shape_nil, one_mem, space_mem] at ho
      obtain ⟨_, _, rfl, rfl, _, _, rfl, rfl, a, _, rfl, ha, _, _, rfl, rfl, _, _, rfl, rfl, _, _,
        rfl, rfl, b, _, rfl, hb, _, _, rfl, rfl, _, _, rfl, rfl, _, _, rfl, rfl, rfl⟩ := ho
      exact ⟨a, b, rfl, ha, hb, rfl⟩
    · cases h
  · rintro o post new ⟨a, b, rfl, ha, hb, rfl⟩
    rw [hm, if_pos]
    · simp
    · simp [front, one_mem, space_mem, ha, hb]
  · rintro o post new ⟨a, b, rfl, -⟩
    simp

theorem mem_34 {c : Nat} : (CC.set [(51, 51), (52, 52)]).mem c = true ↔ c = 51 ∨ c = 52 := by
  simp [CC.mem, CC.ranges, inRanges]
  omega

theorem mem_CLR {c : Nat} : (CC.set [(67, 67), (76, 76), (82, 82)]).mem c = true ↔ c ∈ py!"CLR" := by
  simp [CC.mem, CC.ranges, inRanges]
  omega

theorem sanProb_match (s : PyStr) : sanProbRE.match s =
    if front [CC.set [(80, 80)], CC.set [(82, 82)], CC.set [(79, 79)], CC.set [(66, 66)],
      CC.set [(51, 51), (52, 52)], CC.set [(48, 48)], .space, CC.set [(84, 84)], CC.set [(69, 69)],
      CC.set [(77, 77)], CC.set [(80, 80)], CC.set [(79, 79)]] s then
      some ⟨s, 12, [(.percent, 4, 6)]⟩ else none := by
  show ((RE.m s (RE.thenRE [CC.set [(80, 80)], CC.set [(82, 82)], CC.set [(79, 79)],
    CC.set [(66, 66)]] (.seq (.grp .percent (RE.chrs [CC.set [(51, 51), (52, 52)], CC.set [(48, 48)]]))
      (RE.chrs [.space, CC.set [(84, 84)], CC.set [(69, 69)],
      CC.set [(77, 77)], CC.set [(80, 80)], CC.set [(79, 79)]]))) (0, [])).head?.map
        fun st => (⟨s, st.1, st.2⟩ : Match)) = _
  rw [RE.m_thenRE]
  show ((if _ then ((RE.m s (RE.chrs _) _).map _).flatMap _ else []).head?.map _) = _
  rw [RE.m_chrs]
  have split_front : ∀ (k1 k2 : List CC) (t : PyStr), front (k1 ++ k2) t =
      (front k1 t && front k2 (t.drop k1.length)) := by
    intro k1
    induction k1 with
    | nil => intro k2 t; simp [front]
    | cons k ks ih =>
      intro k2 t
      cases t with
      | nil => simp [front]
      | cons c t => simp only [List.cons_append, front, ih, Bool.and_assoc]; rfl
  rw [show [CC.set [(80, 80)], CC.set [(82, 82)], CC.set [(79, 79)], CC.set [(66, 66)],
      CC.set [(51, 51), (52, 52)], CC.set [(48, 48)], .space, CC.set [(84, 84)], CC.set [(69, 69)],
      CC.set [(77, 77)], CC.set [(80, 80)], CC.set [(79, 79)]] =
    [CC.set [(80, 80)], CC.set [(82, 82)], CC.set [(79, 79)], CC.set [(66, 66)]] ++
    ([CC.set [(51, 51), (52, 52)], CC.set [(48, 48)]] ++ [.space, CC.set [(84, 84)], CC.set [(69, 69)],
      CC.set [(77, 77)], CC.set [(80, 80)], CC.set [(79, 79)]]) from rfl, split_front, split_front]
  simp only [List.drop_zero, List.length_cons, List.length_nil, Nat.zero_add, Nat.reduceAdd,
    List.drop_drop]
  cases front [CC.set [(80, 80)], CC.set [(82, 82)], CC.set [(79, 79)], CC.set [(66, 66)]] s
  · rfl
  · simp only [if_true, Bool.true_and]
    cases front [CC.set [(51, 51), (52, 52)], CC.set [(48, 48)]] (s.drop 4)
    · rfl
    · simp only [if_true, Bool.true_and, List.map_cons, List.map_nil, List.flatMap_cons,
        List.flatMap_nil, List.append_nil, RE.m_chrs]
      simp only [List.length_cons, List.length_nil, Nat.zero_add, Nat.reduceAdd]
      split <;> rfl

theorem sanProb_implements : Implements sanProbRE
    (fun m => py!"PROB" ++ (m.group .percent).getD [] ++ py!"_TEMPO") probRule := by
  refine ⟨?_, ?_, ?_⟩
  · intro s m h
    rw [sanProb_match] at h
    split at h
    · next hf =>
      cases h
      obtain ⟨o, post, rfl, ho⟩ := front_iff.1 hf
      refine ⟨o, post, rfl, ?_, by rw [ho.length]; rfl⟩
      simp only [shape_cons, shape_nil, one_mem, space_mem, mem_34] at ho
      obtain ⟨_, _, rfl, rfl, _, _, rfl, rfl, _, _, rfl, rfl, _, _, rfl, rfl, d, _, rfl, hd, _, _,
        rfl, rfl, a, _, rfl, ha, _, _, rfl, rfl, _, _, rfl, rfl, _, _, rfl, rfl, _, _, rfl, rfl,
        _, _, rfl, rfl, rfl⟩ := ho
      exact ⟨a, d, rfl, by simpa using hd, ha, rfl⟩
    · cases h
  · rintro o post new ⟨a, d, rfl, hd, ha, rfl⟩
    rw [sanProb_match, if_pos]
    · simp
    · have hd : (CC.set [(51, 51), (52, 52)]).mem d = true := mem_34.2 (by simpa using hd)
      simp [front, one_mem, space_mem, ha, hd]
  · rintro o post new ⟨a, b, rfl, -⟩
    simp

theorem digit_not_space {c : Nat} (h : isDigit c = true) : isSpace c = false :=
  disjRanges_sound (a := digitRanges) (b := spaceRanges) (by decide +kernel) h

theorem digit_not_W {c : Nat} (h : isDigit c = true) : (CC.set [(87, 87)]).mem c = false :=
  disjRanges_sound (a := digitRanges) (b := [(87, 87)]) (by decide +kernel) h

theorem RE.m_two (s : PyStr) (st : St) :
    RE.m s (.rep .digit 2 (some 2)) st =
      if front [.digit, .digit] (s.drop st.1) then [(st.1 + 2, st.2)] else [] := by
  rw [RE.m, Option.getD_some, runLen_eq]
  rcases s.drop st.1 with _ | ⟨a, _ | ⟨b, t⟩⟩
  · rfl
  · by_cases ha : CC.digit.mem a = true
    · simp only [List.takeWhile_cons, ha, front]
      rfl
    · simp only [List.takeWhile_cons, ha, front]
      rfl
  · by_cases ha : CC.digit.mem a = true
    · by_cases hb : CC.digit.mem b = true
      · simp only [List.takeWhile_cons, ha, hb, front, if_true, List.length_cons, Bool.and_self]
        rw [show min 2 ((List.takeWhile CC.digit.mem t).length + 1 + 1) = 2 by omega]
        rfl
      · simp only [List.takeWhile_cons, ha, hb, front]
        rfl
    · simp only [List.takeWhile_cons, ha, front]
      rfl

/-- The end of a runway name. -/
def wsEnd (s : PyStr) (q : Nat) : Nat :=
  if front [CC.set [(67, 67), (76, 76), (82, 82)]] (s.drop (q + 2)) then q + 3 else q + 2

theorem sanWs_name (s : PyStr) (q : Nat) :
    (RE.m s (.grp .name (.seq (.rep .digit 2 (some 2)) (.opt (.chr (CC.set [(67, 67), (76, 76), (82, 82)])))))
      (q, [])).head? =
    if front [.digit, .digit] (s.drop q) then some (wsEnd s q, [(.name, q, wsEnd s q)]) else none := by
  have ho : ∀ st, RE.m s (.opt (.chr (CC.set [(67, 67), (76, 76), (82, 82)]))) st =
      (if front [CC.set [(67, 67), (76, 76), (82, 82)]] (s.drop st.1) then [(st.1 + 1, st.2)] else []) ++
        [st] := by
    intro st
    have := RE.m_chrs s [CC.set [(67, 67), (76, 76), (82, 82)]] st
    rw [RE.m]
    exact congrArg (· ++ [st]) this
  rw [RE.m, RE.m, RE.m_two]
  unfold wsEnd
  split
  · simp only [List.flatMap_cons, List.flatMap_nil, List.append_nil, ho]
    split <;> simp
  · rfl

theorem sanWs_match (s : PyStr) : sanWsRE.match s =
    if front [CC.set [(87, 87)], CC.set [(83, 83)], .space, CC.set [(82, 82)]] s then
      (fun q => if front [.digit, .digit] (s.drop q) then
        some ⟨s, wsEnd s q, [(.name, q, wsEnd s q)]⟩ else none)
        (if front [CC.set [(87, 87)], CC.set [(89, 89)]] (s.drop 4) then 6 else 4)
    else none := by
  unfold RE.match
  rw [show sanWsRE = RE.thenRE [CC.set [(87, 87)], CC.set [(83, 83)], .space, CC.set [(82, 82)]]
    (.seq (.opt (RE.chrs [CC.set [(87, 87)], CC.set [(89, 89)]]))
      (.grp .name (.seq (.rep .digit 2 (some 2)) (.opt (.chr (CC.set [(67, 67), (76, 76), (82, 82)]))))))
    from rfl, RE.m_thenRE]
  simp only [List.drop_zero, List.length_cons, List.length_nil, Nat.zero_add, Nat.reduceAdd]
  split
  · rw [RE.m, RE.m, RE.m_chrs]
    simp only [List.length_cons, List.length_nil, Nat.zero_add, Nat.reduceAdd]
    have h6 := sanWs_name s 6
    have h4 := sanWs_name s 4
    split
    · next hw =>
      have hd : front [.digit, .digit] (s.drop 4) = false := by
        rcases hs : s.drop 4 with _ | ⟨a, t⟩
        · rfl
        · rw [hs] at hw
          simp only [front, Bool.and_eq_true] at hw
          have : CC.digit.mem a = false := by
            rw [Bool.eq_false_iff]
            intro h
            rw [digit_not_W h] at hw
            cases hw.1
          simp [front, this]
      rw [hd] at h4
      simp only [List.singleton_append, List.flatMap_cons, List.flatMap_nil, List.append_nil,
        List.head?_append, h6, h4]
      split <;> rfl
    · simp only [List.nil_append, List.flatMap_cons, List.flatMap_nil, List.append_nil, h4]
      split <;> rfl
  · rfl

theorem group_of {m : Match} {c : Cap} {a b : PyStr} {rest : PyStr} {i j : Nat}
    (hs : m.string = a ++ (b ++ rest)) (hc : m.caps.lookup c = some (i, j)) (hi : i = a.length)
    (hj : j = a.length + b.length) : m.group c = some b := by
  unfold Match.group
  rw [hc, hs, hi, hj]
  simp

theorem sanWs_implements : Implements sanWsRE (fun m => py!"WS_R" ++ (m.group .name).getD []) wsRule := by
  refine ⟨?_, ?_, ?_⟩
  · intro s m h
    rw [sanWs_match] at h
    split at h
    · next hf =>
      obtain ⟨o1, s1, rfl, h1⟩ := front_iff.1 hf
      have l1 := h1.length
      simp only [List.length_cons, List.length_nil, Nat.zero_add, Nat.reduceAdd] at l1
      simp only [drop_append_len l1] at h
      -- the optional `WY`
      obtain ⟨wy, s2, rfl, hwy, hq, hq'⟩ : ∃ wy s2, s1 = wy ++ s2 ∧ (wy = [] ∨ wy = py!"WY") ∧
          (if front [CC.set [(87, 87)], CC.set [(89, 89)]] s1 then 6 else 4) = (o1 ++ wy).length ∧
          True := by
        split
        · next hw =>
          obtain ⟨o2, s2, rfl, h2⟩ := front_iff.1 hw
          simp only [shape_cons, shape_nil, one_mem] at h2
          obtain ⟨_, _, rfl, rfl, _, _, rfl, rfl, rfl⟩ := h2
          exact ⟨[87, 89], s2, rfl, .inr rfl, by simp [l1], trivial⟩
        · exact ⟨[], s1, rfl, .inl rfl, by simp [l1], trivial⟩
      rw [hq, ← List.append_assoc] at h
      simp only [List.drop_left] at h
      split at h
      · next hd =>
        obtain ⟨o3, s3, rfl, h3⟩ := front_iff.1 hd
        have l3 := h3.length
        simp only [List.length_cons, List.length_nil, Nat.zero_add, Nat.reduceAdd] at l3
        have hend : wsEnd (o1 ++ wy ++ (o3 ++ s3)) (o1 ++ wy).length =
            if front [CC.set [(67, 67), (76, 76), (82, 82)]] s3 then (o1 ++ wy).length + 3
            else (o1 ++ wy).length + 2 := by
          unfold wsEnd
          rw [← List.append_assoc, drop_append_len (by rw [List.length_append (bs := o3), l3])]
        obtain ⟨side, s4, rfl, hside, he⟩ : ∃ side s4, s3 = side ++ s4 ∧
            ((side = [] ∧ ∀ c, s4.head? = some c → c ∉ py!"CLR") ∨ ∃ c ∈ py!"CLR", side = [c]) ∧
            wsEnd (o1 ++ wy ++ (o3 ++ s3)) (o1 ++ wy).length = (o1 ++ wy).length + (o3 ++ side).length := by
          rw [hend]
          split
          · next hc =>
            obtain ⟨o4, s4, rfl, h4⟩ := front_iff.1 hc
            simp only [shape_cons, shape_nil, mem_CLR] at h4
            obtain ⟨c, _, rfl, hcl, rfl⟩ := h4
            exact ⟨[c], s4, rfl, .inr ⟨c, hcl, rfl⟩, by simp [l3]⟩
          · next hc =>
            refine ⟨[], s3, rfl, .inl ⟨rfl, ?_⟩, by simp [l3]⟩
            intro c hs hm
            cases s3 with
            | nil => simp at hs
            | cons d t =>
              simp only [List.head?_cons, Option.some.injEq] at hs
              subst hs
              exact hc (by simp [front, mem_CLR.2 hm])
        rw [he] at h
        cases h
        refine ⟨o1 ++ wy ++ (o3 ++ side), s4, by simp, ?_, by simp; omega⟩
        rw [group_of (a := o1 ++ wy) (b := o3 ++ side) (rest := s4) (i := (o1 ++ wy).length)
          (j := (o1 ++ wy).length + (o3 ++ side).length) (by simp) rfl rfl rfl]
        simp only [shape_cons, shape_nil, one_mem, space_mem, digit_mem] at h1 h3
        obtain ⟨_, _, rfl, rfl, _, _, rfl, rfl, a, _, rfl, ha, _, _, rfl, rfl, rfl⟩ := h1
        obtain ⟨x, _, rfl, hx, y, _, rfl, hy, rfl⟩ := h3
        exact ⟨a, wy, x, y, side, by simp, ha, hwy, hx, hy, hside, by simp⟩
      · cases h
    · cases h
  · rintro o post new ⟨a, wy, x, y, side, rfl, ha, hwy, hx, hy, -, rfl⟩
    rw [sanWs_match]
    have hx' : CC.digit.mem x = true := hx
    have hy' : CC.digit.mem y = true := hy
    have ha' : CC.space.mem a = true := ha
    rcases hwy with rfl | rfl
    · simp [front, one_mem, hx', hy', ha', digit_not_W hx]
    · simp [front, one_mem, hx', hy', ha']
  · rintro o post new ⟨a, wy, x, y, side, rfl, -⟩
    simp

theorem flatMap_downFrom {f : St → List St} {p : Nat} {cs : Caps} {lo n : Nat}
    (h : ∀ k, k < n → f (p + k, cs) = []) :
    (downFrom p cs lo n).flatMap f = if lo ≤ n then f (p + n, cs) else [] := by
  have none' : ∀ n, (∀ k, k ≤ n → f (p + k, cs) = []) → (downFrom p cs lo n).flatMap f = [] := by
    intro n
    induction n with
    | zero =>
      intro h
      unfold downFrom
      split
      · simpa using h 0 (by omega)
      · rfl
    | succ n ih =>
      intro h
      unfold downFrom
      split
      · rw [List.flatMap_cons, h (n + 1) (by omega), ih fun k hk => h k (by omega)]
        rfl
      · rfl
  cases n with
  | zero =>
    unfold downFrom
    by_cases hl : lo = 0
    · simp [hl]
    · simp [hl]
  | succ n =>
    unfold downFrom
    by_cases hl : lo ≤ n + 1
    · rw [if_pos hl, if_pos hl, List.flatMap_cons, none' n fun k hk => h k (by omega), List.append_nil]
    · rw [if_neg hl, if_neg hl]
      rfl

/-- The length of the digits after the first character. -/
def visLen (s : PyStr) : Nat := ((s.drop 1).takeWhile isDigit).length

theorem sanVis_match (s : PyStr) : sanVisRE.match s =
    if front [.space] s then
      if 1 ≤ visLen s then
        if front [.space, .digit, CC.set [(47, 47)], .digit, CC.set [(83, 83)], CC.set [(77, 77)]]
            (s.drop (1 + visLen s)) then
          some ⟨s, if front [.space] (s.drop (7 + visLen s)) then 8 + visLen s else 7 + visLen s,
            [(.frac, 2 + visLen s, 7 + visLen s), (.int, 1, 1 + visLen s)]⟩
        else none
      else none
    else none := by
  unfold RE.match
  rw [show sanVisRE = RE.thenRE [.space] (.seq (.grp .int (.rep .digit 1 none))
    (RE.thenRE [.space] (.seq (.grp .frac (RE.chrs [.digit, CC.set [(47, 47)], .digit,
      CC.set [(83, 83)], CC.set [(77, 77)]])) (.opt (RE.chrs [.space]))))) from rfl, RE.m_thenRE]
  simp only [List.drop_zero, List.length_cons, List.length_nil, Nat.zero_add]
  split
  · have hrun : runLen s .digit s.length 1 = visLen s := by
      rw [runLen_eq]
      unfold visLen
      have h1 : (List.takeWhile CC.digit.mem (s.drop 1)).length ≤ (s.drop 1).length :=
        (List.takeWhile_sublist _).length_le
      rw [List.length_drop] at h1
      rw [Nat.min_eq_right (by omega)]
      rfl
    rw [RE.m, RE.m, RE.m, Option.getD_none]
    simp only [hrun]
    rw [List.flatMap_map, flatMap_downFrom]
    · split
      · rw [RE.m_thenRE, RE.m]
        simp only [RE.m, List.length_cons, List.length_nil, Nat.zero_add, Nat.reduceAdd, RE.m_chrs]
        have e : front [.space, .digit, CC.set [(47, 47)], .digit, CC.set [(83, 83)], CC.set [(77, 77)]]
            (s.drop (1 + visLen s)) = (front [.space] (s.drop (1 + visLen s)) &&
              front [.digit, CC.set [(47, 47)], .digit, CC.set [(83, 83)], CC.set [(77, 77)]]
                (s.drop (1 + visLen s + 1))) := by
          rw [show s.drop (1 + visLen s + 1) = (s.drop (1 + visLen s)).drop 1 from List.drop_drop.symm]
          cases s.drop (1 + visLen s) with
          | nil => rfl
          | cons c t => simp [front]
        rw [e]
        cases front [.space] (s.drop (1 + visLen s))
        · rfl
        · simp only [if_true, Bool.true_and]
          cases front [.digit, CC.set [(47, 47)], .digit, CC.set [(83, 83)], CC.set [(77, 77)]]
                (s.drop (1 + visLen s + 1))
          · rfl
          · simp only [if_true, List.map_cons, List.map_nil, List.flatMap_cons, List.flatMap_nil,
              List.append_nil]
            rw [show 1 + visLen s + 1 + 5 = 7 + visLen s by omega,
              show 1 + visLen s + 1 = 2 + visLen s by omega]
            cases front [.space] (s.drop (7 + visLen s))
            · rfl
            · simp only [if_true, List.singleton_append, List.head?_cons, Option.map_some]
              rw [show 7 + visLen s + 1 = 8 + visLen s by omega]
      · rfl
    · intro k hk
      rw [RE.m_thenRE, if_neg]
      simp only
      unfold visLen at hk
      rw [show 1 + k = 1 + k from rfl, ← List.drop_drop]
      generalize s.drop 1 = t at hk
      intro hf
      have hlt : k < t.length := Nat.lt_of_lt_of_le hk (List.takeWhile_sublist _).length_le
      rw [List.drop_eq_getElem_cons hlt] at hf
      simp only [front, Bool.and_true] at hf
      have hd : isDigit t[k] = true := by
        have h1 : (t.takeWhile isDigit)[k] = t[k] := by
          have := List.takeWhile_prefix isDigit (l := t)
          exact this.getElem hk
        rw [← h1]
        exact List.all_eq_true.1 (List.all_takeWhile (p := isDigit) (l := t)) _ (List.getElem_mem hk)
      rw [space_mem, digit_not_space hd] at hf
      cases hf
  · rfl

theorem sanVis_implements : Implements sanVisRE (fun m => py!" " ++ (m.group .int).getD [] ++ py!"_" ++
    (m.group .frac).getD [] ++ py!" ") visRule := by
  refine ⟨?_, ?_, ?_⟩
  · intro s m h
    rw [sanVis_match] at h
    split at h
    · next hf =>
      obtain ⟨o1, s1, rfl, h1⟩ := front_iff.1 hf
      simp only [shape_cons, shape_nil, space_mem] at h1
      obtain ⟨a, _, rfl, ha, rfl⟩ := h1
      obtain ⟨ds, s2, rfl, hds, hlen⟩ : ∃ ds s2, s1 = ds ++ s2 ∧ (∀ d ∈ ds, isDigit d = true) ∧
          visLen ([a] ++ s1) = ds.length :=
        ⟨s1.takeWhile isDigit, s1.dropWhile isDigit, List.takeWhile_append_dropWhile.symm,
          fun d hd => List.all_eq_true.1 List.all_takeWhile d hd, rfl⟩
      rw [hlen] at h
      split at h
      · next hn =>
        split at h
        · next hf2 =>
          rw [← List.append_assoc, drop_append_len (by simp; omega)] at hf2
          obtain ⟨o2, s3, rfl, h2⟩ := front_iff.1 hf2
          have l2 := h2.length
          simp only [List.length_cons, List.length_nil, Nat.zero_add, Nat.reduceAdd] at l2
          obtain ⟨tail, s4, rfl, htail, he⟩ : ∃ tail s4, s3 = tail ++ s4 ∧
              ((tail = [] ∧ ∀ c, s4.head? = some c → isSpace c = false) ∨
                ∃ c, tail = [c] ∧ isSpace c = true) ∧
              (if front [.space] (([a] ++ (ds ++ (o2 ++ s3))).drop (7 + ds.length)) then 8 + ds.length
                else 7 + ds.length) = 7 + ds.length + tail.length := by
            rw [show [a] ++ (ds ++ (o2 ++ s3)) = ([a] ++ ds ++ o2) ++ s3 by simp,
              drop_append_len (by simp; omega)]
            split
            · next hc =>
              obtain ⟨o4, s4, rfl, h4⟩ := front_iff.1 hc
              simp only [shape_cons, shape_nil, space_mem] at h4
              obtain ⟨c, _, rfl, hcl, rfl⟩ := h4
              exact ⟨[c], s4, rfl, .inr ⟨c, rfl, hcl⟩, by simp; omega⟩
            · next hc =>
              refine ⟨[], s3, rfl, .inl ⟨rfl, ?_⟩, by simp⟩
              intro c hs
              cases s3 with
              | nil => simp at hs
              | cons d t =>
                simp only [List.head?_cons, Option.some.injEq] at hs
                subst hs
                rw [Bool.eq_false_iff]
                intro hsp
                exact hc (by simp [front, space_mem, hsp])
          rw [he] at h
          simp only [shape_cons, shape_nil, one_mem, space_mem, digit_mem] at h2
          obtain ⟨b, _, rfl, hb, x, _, rfl, hx, _, _, rfl, rfl, y, _, rfl, hy, _, _, rfl, rfl, _, _, rfl,
            rfl, rfl⟩ := h2
          cases h
          refine ⟨a :: (ds ++ b :: x :: py!"/" ++ y :: py!"SM" ++ tail), s4, by simp, ?_, by simp; omega⟩
          rw [group_of (c := .int) (a := [a]) (b := ds) (rest := [b, x, 47, y, 83, 77] ++ (tail ++ s4))
            (i := 1) (j := 1 + ds.length) rfl rfl rfl rfl,
            group_of (c := .frac) (a := a :: (ds ++ [b])) (b := [x, 47, y, 83, 77]) (rest := tail ++ s4)
            (i := 2 + ds.length) (j := 7 + ds.length) (by simp) rfl (by simp; omega) (by simp; omega)]
          exact ⟨a, ds, b, x, y, tail, rfl, ha, by intro h0; subst h0; simp at hn, hds, hb, hx, hy,
            htail, by simp⟩
        · cases h
      · cases h
    · cases h
  · rintro o post new ⟨a, ds, b, x, y, tail, rfl, ha, hne, hds, hb, hx, hy, -, rfl⟩
    rw [sanVis_match]
    have hx' : CC.digit.mem x = true := hx
    have hy' : CC.digit.mem y = true := hy
    have ha' : CC.space.mem a = true := ha
    have hb' : CC.space.mem b = true := hb
    have hb'' : isDigit b = false := by
      rw [Bool.eq_false_iff]
      intro h
      rw [digit_not_space h] at hb
      cases hb
    have hlen : visLen (a :: (ds ++ b :: x :: py!"/" ++ y :: py!"SM" ++ tail) ++ post) = ds.length := by
      unfold visLen
      simp only [List.cons_append, List.drop_succ_cons, List.drop_zero, List.append_assoc]
      rw [List.takeWhile_append_of_pos hds]
      simp [hb'']
    rw [hlen]
    have hl : 1 ≤ ds.length := by cases ds <;> simp_all
    rw [if_pos (by simp [front, ha']), if_pos hl, if_pos]
    · simp
    · rw [show a :: (ds ++ b :: x :: py!"/" ++ y :: py!"SM" ++ tail) ++ post =
        (a :: ds) ++ (b :: x :: py!"/" ++ y :: py!"SM" ++ tail ++ post) by simp,
        drop_append_len (by simp; omega)]
      simp [front, one_mem, hx', hy', hb']
  · rintro o post new ⟨a, wy, x, y, side, _, rfl, -⟩
    simp

end Verif
