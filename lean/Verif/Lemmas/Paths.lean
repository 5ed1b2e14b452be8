import Verif.Lemmas.Regex

/-
Facts about the captured groups of every match of a bounded pattern, by checking its paths.
-/

namespace Verif

/-- The character classes along a path. -/
def pathCls : List Step → List CC
  | [] => []
  | .ch cc :: t => cc :: pathCls t
  | .eos :: t => pathCls t

theorem pathCls_length (p : List Step) : (pathCls p).length = pathLen p := by
  induction p with
  | nil => rfl
  | cons x t ih => cases x <;> simp [pathCls, pathLen, ih]

theorem Follows.shape {s : PyStr} {p : Nat} {steps : List Step} (h : Follows s p steps) :
    HasShape (pathCls steps) ((s.drop p).take (pathLen steps)) := by
  induction steps generalizing p with
  | nil => simp [pathCls, pathLen, HasShape]
  | cons x t ih =>
    cases x with
    | ch cc =>
      obtain ⟨c, hc, hm, hf⟩ := h
      refine ⟨c, (s.drop (p + 1)).take (pathLen t), ?_, hm, ih hf⟩
      obtain ⟨hp, hc'⟩ := List.getElem?_eq_some_iff.1 hc
      rw [List.drop_eq_getElem_cons hp, hc', pathLen, List.take_succ_cons]
    | eos => exact ih h.2

/-- The classes captured by a group along a path; `none` when the group does not take part. -/
def capCls (x : List Step × St) (n : Cap) : Option (List CC) :=
  (x.2.2.lookup n).map fun (a, b) => ((pathCls x.1).drop a).take (b - a)

/-- All captures of the path lie inside it. -/
def capsInside (x : List Step × St) : Bool := x.2.2.all fun c => Nat.ble c.2.2 (pathLen x.1)

theorem lookup_mem {α β : Type} [BEq α] [LawfulBEq α] {l : List (α × β)} {a : α} {b : β}
    (h : l.lookup a = some b) : (a, b) ∈ l := by
  induction l with
  | nil => simp at h
  | cons x t ih =>
    obtain ⟨k, v⟩ := x
    simp only [List.lookup_cons] at h
    split at h
    · next he =>
      simp only [Option.some.injEq] at h
      rw [h, LawfulBEq.eq_of_beq he]; simp
    · exact List.mem_cons_of_mem _ (ih h)

/-- What is captured has the classes of the path. -/
theorem group_of_path {s : PyStr} {m : Match} {x : List Step × St} (hs : m.string = s)
    (hc : m.caps = x.2.2) (hf : Follows s 0 x.1) (hi : capsInside x = true) (n : Cap) :
    (capCls x n = none ∧ m.group n = none) ∨
      ∃ ks g, capCls x n = some ks ∧ m.group n = some g ∧ HasShape ks g := by
  unfold capCls Match.group
  rw [hc, hs]
  cases hl : x.2.2.lookup n with
  | none => left; simp
  | some ab =>
    obtain ⟨a, b⟩ := ab
    right
    refine ⟨_, _, rfl, rfl, ?_⟩
    have hb : b ≤ pathLen x.1 := by
      have := List.all_eq_true.1 hi _ (lookup_mem hl)
      simpa using this
    have := (hf.shape.drop a).take (b - a)
    simp only [List.drop_zero] at this
    rw [List.drop_take, List.take_take, Nat.min_eq_left (by omega)] at this
    exact this

/-- Class by class inclusion. -/
def subShape : List CC → List CC → Bool
  | [], [] => true
  | a :: as, b :: bs => CC.test a b == some true && subShape as bs
  | _, _ => false

theorem subShape_sound {a b : List CC} (h : subShape a b = true) {s : PyStr} (hs : HasShape a s) :
    HasShape b s := by
  induction a generalizing b s with
  | nil =>
    cases b with
    | nil => exact hs
    | cons b bs => simp [subShape] at h
  | cons k ks ih =>
    cases b with
    | nil => simp [subShape] at h
    | cons b bs =>
      simp only [subShape, Bool.and_eq_true, beq_iff_eq] at h
      obtain ⟨c, t, rfl, hc, ht⟩ := hs
      exact ⟨c, t, rfl, CC.test_sound h.1 hc, ih h.2 ht⟩

/-- The classes of the group are among the listed shapes along every path (or the group may be
absent). -/
def RE.groupIn (r : RE) (n : Cap) (shapes : List (List CC)) (opt : Bool) : Bool :=
  (r.paths (0, [])).isSome && r.paths0.all fun x => capsInside x &&
    match capCls x n with
    | none => opt
    | some ks => shapes.any (subShape ks)

theorem RE.groupIn_sound {r : RE} {n : Cap} {shapes : List (List CC)} {opt : Bool}
    (h : r.groupIn n shapes opt = true) {s : PyStr} {m : Match} (hm : r.match s = some m) :
    (m.group n = none ∧ opt = true) ∨ ∃ ks ∈ shapes, ∃ g, m.group n = some g ∧ HasShape ks g := by
  unfold RE.groupIn at h
  rw [Bool.and_eq_true] at h
  obtain ⟨x, hx, h1, _, h3, h4⟩ := RE.match_path h.1 hm
  have hx' := List.all_eq_true.1 h.2 x hx
  rw [Bool.and_eq_true] at hx'
  rcases group_of_path h1 h3 h4 hx'.1 n with ⟨e1, e2⟩ | ⟨ks, g, e1, e2, e3⟩
  · left
    rw [e1] at hx'
    exact ⟨e2, hx'.2⟩
  · right
    rw [e1] at hx'
    obtain ⟨k, hk, hs⟩ := List.any_eq_true.1 hx'.2
    exact ⟨k, hk, g, e2, subShape_sound hs e3⟩

/-- The group is always there. -/
theorem RE.groupIn_some {r : RE} {n : Cap} {shapes : List (List CC)}
    (h : r.groupIn n shapes false = true) {s : PyStr} {m : Match} (hm : r.match s = some m) :
    ∃ ks ∈ shapes, ∃ g, m.group n = some g ∧ HasShape ks g := by
  rcases RE.groupIn_sound h hm with ⟨_, h⟩ | h
  · cases h
  · exact h

/-- Does the path end with `$` (and contain no other)? -/
def endsWithEos : List Step → Bool
  | [] => false
  | [.eos] => true
  | _ :: t => endsWithEos t

theorem Follows.atEnd {s : PyStr} {p : Nat} {steps : List Step} (h : Follows s p steps)
    (he : endsWithEos steps = true) : Verif.atEnd s (p + pathLen steps) = true := by
  induction steps generalizing p with
  | nil => simp [endsWithEos] at he
  | cons x t ih =>
    cases x with
    | ch cc =>
      obtain ⟨c, _, _, hf⟩ := h
      have : endsWithEos t = true := by
        cases t
        · simp [endsWithEos] at he
        · simpa [endsWithEos] using he
      have := ih hf this
      simp only [pathLen]
      rw [show p + (pathLen t + 1) = p + 1 + pathLen t by omega]
      exact this
    | eos =>
      cases t with
      | nil => simpa [pathLen] using h.1
      | cons y t =>
        have : endsWithEos (y :: t) = true := by simpa [endsWithEos] using he
        simpa [pathLen] using ih h.2 this

theorem atEnd_cases {s : PyStr} {p : Nat} (h : atEnd s p = true) :
    s.length = p ∨ (s.length = p + 1 ∧ s[p]? = some 10) := by
  simp only [atEnd, Bool.or_eq_true, beq_iff_eq, Bool.and_eq_true] at h
  rcases h with h | h
  · exact .inl h.symm
  · exact .inr ⟨h.1.symm, h.2⟩

/-- A path ending with `$` spells the whole string, up to one newline at the end. -/
theorem Follows.whole {s : PyStr} {steps : List Step} (h : Follows s 0 steps)
    (he : endsWithEos steps = true) :
    HasShape (pathCls steps) s ∨ ∃ t, s = t ++ [10] ∧ HasShape (pathCls steps) t := by
  have hsh := h.shape
  have hend := h.atEnd he
  simp only [List.drop_zero, Nat.zero_add] at hsh hend
  rcases atEnd_cases hend with h1 | ⟨h1, h2⟩
  · left; rwa [List.take_of_length_le (by omega)] at hsh
  · right
    refine ⟨s.take (pathLen steps), ?_, hsh⟩
    obtain ⟨hp, hc⟩ := List.getElem?_eq_some_iff.1 h2
    have e := List.take_append_drop (pathLen steps) s
    rw [List.drop_eq_getElem_cons hp, hc, List.drop_of_length_le (by omega)] at e
    exact e.symm

theorem Follows.whole' {s : PyStr} {steps : List Step} (h : Follows s 0 steps)
    (he : endsWithEos steps = true) (hn : 10 ∉ s) : HasShape (pathCls steps) s := by
  rcases h.whole he with h | ⟨t, rfl, _⟩
  · exact h
  · simp at hn

/-- All matched strings of a bounded pattern whose paths all end with `$`. -/
theorem RE.match_whole {r : RE}
    (hb : ((r.paths (0, [])).isSome && r.paths0.all fun x => endsWithEos x.1 && capsInside x) = true)
    {s : PyStr} {m : Match} (h : r.match s = some m) (hn : 10 ∉ s) :
    ∃ x ∈ r.paths0, m.string = s ∧ m.caps = x.2.2 ∧ HasShape (pathCls x.1) s ∧ Follows s 0 x.1 ∧
      capsInside x = true := by
  rw [Bool.and_eq_true] at hb
  obtain ⟨x, hx, h1, _, h3, h4⟩ := RE.match_path hb.1 h
  have := List.all_eq_true.1 hb.2 x hx
  rw [Bool.and_eq_true] at this
  exact ⟨x, hx, h1, h3, h4.whole' this.1 hn, h4, this.2⟩

theorem RE.match_string {r : RE} {s : PyStr} {m : Match} (h : r.match s = some m) :
    m.string = s := by
  unfold RE.match at h
  simp only [Option.map_eq_some_iff] at h
  obtain ⟨st, _, rfl⟩ := h
  rfl

/-! ### One group at a time -/

/-- The shapes of the texts a bounded pattern can consume, wherever it starts. -/
def RE.shapes : RE → Option (List (List CC))
  | .eps => some [[]]
  | .chr cc => some [[cc]]
  | .seq a b =>
    match a.shapes, b.shapes with
    | some l, some l' => some (l.flatMap fun x => l'.map fun y => x ++ y)
    | _, _ => none
  | .alt a b =>
    match a.shapes, b.shapes with
    | some l, some l' => some (l ++ l')
    | _, _ => none
  | .opt a => a.shapes.map (· ++ [[]])
  | .rep _ _ none => none
  | .rep cc lo (some hi) => some ((List.range (hi + 1 - lo)).map fun k => List.replicate (lo + k) cc)
  | .grp _ a => a.shapes
  | .bos => some [[]]
  | .eos => some [[]]

theorem hasShape_replicate {s : PyStr} {cc : CC} {f p k : Nat} (h : k ≤ runLen s cc f p) :
    HasShape (List.replicate k cc) ((s.drop p).take k) := by
  have hf := (follows_runLen h).shape
  rw [pathLen_replicate] at hf
  have : ∀ k, pathCls (List.replicate k (.ch cc)) = List.replicate k cc := by
    intro k
    induction k with
    | zero => rfl
    | succ k ih => simp [List.replicate_succ, pathCls, ih]
  rwa [this] at hf

theorem take_split {s : PyStr} {i j k : Nat} (h1 : i ≤ j) (h2 : j ≤ k) :
    (s.drop i).take (k - i) = (s.drop i).take (j - i) ++ (s.drop j).take (k - j) := by
  rw [show k - i = (j - i) + (k - j) by omega, List.take_add, List.drop_drop,
    show i + (j - i) = j by omega]

theorem RE.shapes_sound {s : PyStr} (r : RE) {l : List (List CC)} (hl : r.shapes = some l)
    {st st' : St} (h : st' ∈ RE.m s r st) :
    st.1 ≤ st'.1 ∧ ∃ ks ∈ l, HasShape ks ((s.drop st.1).take (st'.1 - st.1)) := by
  induction r generalizing l st st' with
  | eps =>
    simp only [RE.shapes, Option.some.injEq] at hl; subst hl
    simp only [RE.m, List.mem_singleton] at h; subst h
    exact ⟨Nat.le_refl _, [], by simp, by simp [HasShape]⟩
  | chr cc =>
    simp only [RE.shapes, Option.some.injEq] at hl; subst hl
    unfold RE.m at h
    cases hc : s[st.1]? with
    | none => simp [hc] at h
    | some c =>
      simp only [hc] at h
      split at h
      · next hm =>
        simp only [List.mem_singleton] at h; subst h
        refine ⟨by simp, [cc], by simp, c, [], ?_, hm, rfl⟩
        obtain ⟨hp, hc'⟩ := List.getElem?_eq_some_iff.1 hc
        simp only [show st.1 + 1 - st.1 = 1 by omega]
        rw [List.drop_eq_getElem_cons hp, hc', List.take_succ_cons, List.take_zero]
      · simp at h
  | seq a b iha ihb =>
    unfold RE.shapes at hl
    cases ha : a.shapes with
    | none => simp [ha] at hl
    | some la =>
      cases hb : b.shapes with
      | none => simp [ha, hb] at hl
      | some lb =>
        simp only [ha, hb, Option.some.injEq] at hl; subst hl
        simp only [RE.m, List.mem_flatMap] at h
        obtain ⟨st1, h1, h2⟩ := h
        obtain ⟨p1, k1, m1, s1⟩ := iha ha h1
        obtain ⟨p2, k2, m2, s2⟩ := ihb hb h2
        refine ⟨by omega, k1 ++ k2,
          List.mem_flatMap.2 ⟨k1, m1, List.mem_map.2 ⟨k2, m2, rfl⟩⟩, ?_⟩
        rw [take_split p1 p2]
        exact s1.append s2
  | alt a b iha ihb =>
    unfold RE.shapes at hl
    cases ha : a.shapes with
    | none => simp [ha] at hl
    | some la =>
      cases hb : b.shapes with
      | none => simp [ha, hb] at hl
      | some lb =>
        simp only [ha, hb, Option.some.injEq] at hl; subst hl
        rcases List.mem_append.1 h with h | h
        · obtain ⟨p1, k1, m1, s1⟩ := iha ha h
          exact ⟨p1, k1, List.mem_append_left _ m1, s1⟩
        · obtain ⟨p1, k1, m1, s1⟩ := ihb hb h
          exact ⟨p1, k1, List.mem_append_right _ m1, s1⟩
  | opt a iha =>
    simp only [RE.shapes, Option.map_eq_some_iff] at hl
    obtain ⟨la, ha, rfl⟩ := hl
    rcases List.mem_append.1 h with h | h
    · obtain ⟨p1, k1, m1, s1⟩ := iha ha h
      exact ⟨p1, k1, List.mem_append_left _ m1, s1⟩
    · simp only [List.mem_singleton] at h; subst h
      exact ⟨Nat.le_refl _, [], by simp, by simp [HasShape]⟩
  | rep cc lo hi =>
    cases hi with
    | none => simp [RE.shapes] at hl
    | some hi =>
      simp only [RE.shapes, Option.some.injEq] at hl; subst hl
      simp only [RE.m, Option.getD_some] at h
      obtain ⟨k, h1, h2, h3⟩ := mem_downFrom h
      have h4 := runLen_le s cc hi st.1
      subst h3
      refine ⟨by simp, List.replicate k cc,
        List.mem_map.2 ⟨k - lo, List.mem_range.2 (by omega), by rw [show lo + (k - lo) = k by omega]⟩, ?_⟩
      simp only [show st.1 + k - st.1 = k by omega]
      exact hasShape_replicate h2
  | grp n a iha =>
    simp only [RE.m, List.mem_map] at h
    obtain ⟨st1, h1, rfl⟩ := h
    have := iha (l := l) hl h1
    exact this
  | bos =>
    simp only [RE.shapes, Option.some.injEq] at hl; subst hl
    simp only [RE.m] at h
    split at h
    · simp only [List.mem_singleton] at h; subst h
      exact ⟨Nat.le_refl _, [], by simp, by simp [HasShape]⟩
    · simp at h
  | eos =>
    simp only [RE.shapes, Option.some.injEq] at hl; subst hl
    simp only [RE.m] at h
    split at h
    · simp only [List.mem_singleton] at h; subst h
      exact ⟨Nat.le_refl _, [], by simp, by simp [HasShape]⟩
    · simp at h

/-- The bodies of the groups called `n`. -/
def RE.bodies (n : Cap) : RE → List RE
  | .seq a b => a.bodies n ++ b.bodies n
  | .alt a b => a.bodies n ++ b.bodies n
  | .opt a => a.bodies n
  | .grp n' a => if n' = n then a :: a.bodies n else a.bodies n
  | _ => []

/-- Is the group `n` always captured? -/
def RE.must (n : Cap) : RE → Bool
  | .seq a b => a.must n || b.must n
  | .alt a b => a.must n && b.must n
  | .grp n' a => decide (n' = n) || a.must n
  | _ => false

theorem RE.captures_sound {s : PyStr} (n : Cap) (r : RE) {st st' : St} (h : st' ∈ RE.m s r st)
    {i j : Nat} (hc : (n, i, j) ∈ st'.2) :
    (n, i, j) ∈ st.2 ∨ ∃ a ∈ r.bodies n, ∃ x y : St, y ∈ RE.m s a x ∧ x.1 = i ∧ y.1 = j := by
  induction r generalizing st st' with
  | eps => simp only [RE.m, List.mem_singleton] at h; subst h; exact .inl hc
  | chr cc =>
    unfold RE.m at h
    cases hx : s[st.1]? with
    | none => simp [hx] at h
    | some c =>
      simp only [hx] at h
      split at h
      · simp only [List.mem_singleton] at h; subst h; exact .inl hc
      · simp at h
  | seq a b iha ihb =>
    simp only [RE.m, List.mem_flatMap] at h
    obtain ⟨st1, h1, h2⟩ := h
    rcases ihb h2 hc with h3 | ⟨x, hx, h3⟩
    · rcases iha h1 h3 with h4 | ⟨x, hx, h4⟩
      · exact .inl h4
      · exact .inr ⟨x, List.mem_append_left _ hx, h4⟩
    · exact .inr ⟨x, List.mem_append_right _ hx, h3⟩
  | alt a b iha ihb =>
    rcases List.mem_append.1 h with h | h
    · rcases iha h hc with h4 | ⟨x, hx, h4⟩
      · exact .inl h4
      · exact .inr ⟨x, List.mem_append_left _ hx, h4⟩
    · rcases ihb h hc with h4 | ⟨x, hx, h4⟩
      · exact .inl h4
      · exact .inr ⟨x, List.mem_append_right _ hx, h4⟩
  | opt a iha =>
    rcases List.mem_append.1 h with h | h
    · exact iha h hc
    · simp only [List.mem_singleton] at h; subst h; exact .inl hc
  | rep cc lo hi =>
    obtain ⟨k, _, _, rfl⟩ := mem_downFrom h
    exact .inl hc
  | grp n' a iha =>
    simp only [RE.m, List.mem_map] at h
    obtain ⟨st1, h1, rfl⟩ := h
    simp only [List.mem_cons] at hc
    rcases hc with hc | hc
    · cases hc
      exact .inr ⟨a, by simp [RE.bodies], st, st1, h1, rfl, rfl⟩
    · rcases iha h1 hc with h4 | ⟨x, hx, h4⟩
      · exact .inl h4
      · refine .inr ⟨x, ?_, h4⟩
        unfold RE.bodies
        split
        · exact List.mem_cons_of_mem _ hx
        · exact hx
  | bos =>
    simp only [RE.m] at h
    split at h
    · simp only [List.mem_singleton] at h; subst h; exact .inl hc
    · simp at h
  | eos =>
    simp only [RE.m] at h
    split at h
    · simp only [List.mem_singleton] at h; subst h; exact .inl hc
    · simp at h

theorem RE.m_caps_mono {s : PyStr} (r : RE) {st st' : St} (h : st' ∈ RE.m s r st)
    {x : Cap × Nat × Nat} (hc : x ∈ st.2) : x ∈ st'.2 := by
  induction r generalizing st st' with
  | eps => simp only [RE.m, List.mem_singleton] at h; subst h; exact hc
  | chr cc =>
    unfold RE.m at h
    cases hx : s[st.1]? with
    | none => simp [hx] at h
    | some c =>
      simp only [hx] at h
      split at h
      · simp only [List.mem_singleton] at h; subst h; exact hc
      · simp at h
  | seq a b iha ihb =>
    simp only [RE.m, List.mem_flatMap] at h
    obtain ⟨st1, h1, h2⟩ := h
    exact ihb h2 (iha h1 hc)
  | alt a b iha ihb =>
    rcases List.mem_append.1 h with h | h
    · exact iha h hc
    · exact ihb h hc
  | opt a iha =>
    rcases List.mem_append.1 h with h | h
    · exact iha h hc
    · simp only [List.mem_singleton] at h; subst h; exact hc
  | rep cc lo hi => obtain ⟨k, _, _, rfl⟩ := mem_downFrom h; exact hc
  | grp n' a iha =>
    simp only [RE.m, List.mem_map] at h
    obtain ⟨st1, h1, rfl⟩ := h
    exact List.mem_cons_of_mem _ (iha h1 hc)
  | bos =>
    simp only [RE.m] at h
    split at h
    · simp only [List.mem_singleton] at h; subst h; exact hc
    · simp at h
  | eos =>
    simp only [RE.m] at h
    split at h
    · simp only [List.mem_singleton] at h; subst h; exact hc
    · simp at h

theorem RE.must_sound {s : PyStr} (n : Cap) (r : RE) (hm : r.must n = true) {st st' : St}
    (h : st' ∈ RE.m s r st) : ∃ i j, (n, i, j) ∈ st'.2 := by
  induction r generalizing st st' with
  | seq a b iha ihb =>
    simp only [RE.m, List.mem_flatMap] at h
    obtain ⟨st1, h1, h2⟩ := h
    simp only [RE.must, Bool.or_eq_true] at hm
    rcases hm with hm | hm
    · obtain ⟨i, j, hx⟩ := iha hm h1
      exact ⟨i, j, RE.m_caps_mono b h2 hx⟩
    · exact ihb hm h2
  | alt a b iha ihb =>
    simp only [RE.must, Bool.and_eq_true] at hm
    rcases List.mem_append.1 h with h | h
    · exact iha hm.1 h
    · exact ihb hm.2 h
  | grp n' a iha =>
    simp only [RE.m, List.mem_map] at h
    obtain ⟨st1, h1, rfl⟩ := h
    simp only [RE.must, Bool.or_eq_true, decide_eq_true_eq] at hm
    rcases hm with rfl | hm
    · exact ⟨st.1, st1.1, by simp⟩
    · obtain ⟨i, j, hx⟩ := iha hm h1
      exact ⟨i, j, List.mem_cons_of_mem _ hx⟩
  | _ => simp [RE.must] at hm

/-- The listed shapes cover what the group can capture. -/
def RE.grpShapes (r : RE) (n : Cap) (shapes : List (List CC)) : Bool :=
  (r.bodies n).all fun a =>
    match a.shapes with
    | none => false
    | some l => l.all fun ks => shapes.any (subShape ks)

theorem lookup_some_of_mem {α β : Type} [BEq α] [LawfulBEq α] {l : List (α × β)} {a : α} {b : β}
    (h : (a, b) ∈ l) : ∃ b', l.lookup a = some b' := by
  induction l with
  | nil => simp at h
  | cons x t ih =>
    obtain ⟨k, v⟩ := x
    simp only [List.lookup_cons]
    split
    · exact ⟨v, rfl⟩
    · next hne =>
      rcases List.mem_cons.1 h with h | h
      · cases h; simp at hne
      · exact ih h

theorem RE.match_mem {r : RE} {s : PyStr} {m : Match} (h : r.match s = some m) :
    (m.stop, m.caps) ∈ RE.m s r (0, []) := by
  unfold RE.match at h
  simp only [Option.map_eq_some_iff] at h
  obtain ⟨st, h1, rfl⟩ := h
  exact List.mem_of_head? h1

/-- Every captured text has one of the listed shapes. -/
theorem RE.grpShapes_sound {r : RE} {n : Cap} {shapes : List (List CC)}
    (h : r.grpShapes n shapes = true) {s : PyStr} {m : Match} (hm : r.match s = some m) {g : PyStr}
    (hg : m.group n = some g) : ∃ ks ∈ shapes, HasShape ks g := by
  have hmem := RE.match_mem hm
  unfold Match.group at hg
  simp only [Option.map_eq_some_iff] at hg
  obtain ⟨⟨i, j⟩, hl, rfl⟩ := hg
  rcases RE.captures_sound n r hmem (lookup_mem hl) with h1 | ⟨a, ha, x, y, hy, rfl, rfl⟩
  · simp at h1
  · have hs := List.all_eq_true.1 h a ha
    cases hsh : a.shapes with
    | none => simp [hsh] at hs
    | some l =>
      simp only [hsh] at hs
      obtain ⟨_, ks, hks, hk⟩ := RE.shapes_sound a hsh hy
      obtain ⟨k', hk', hsub⟩ := List.any_eq_true.1 (List.all_eq_true.1 hs ks hks)
      refine ⟨k', hk', ?_⟩
      rw [RE.match_string hm]
      exact subShape_sound hsub hk

/-- The group is always captured. -/
theorem RE.must_group {r : RE} {n : Cap} (h : r.must n = true) {s : PyStr} {m : Match}
    (hm : r.match s = some m) : ∃ g, m.group n = some g := by
  obtain ⟨i, j, hx⟩ := RE.must_sound n r h (RE.match_mem hm)
  obtain ⟨b, hb⟩ := lookup_some_of_mem hx
  unfold Match.group
  rw [hb]
  exact ⟨_, rfl⟩

/-- A group that does not occur in the pattern is never captured. -/
theorem RE.no_group {r : RE} {n : Cap} (h : r.bodies n = []) {s : PyStr} {m : Match}
    (hm : r.match s = some m) : m.group n = none := by
  unfold Match.group
  cases hl : m.caps.lookup n with
  | none => rfl
  | some ab =>
    obtain ⟨i, j⟩ := ab
    rcases RE.captures_sound n r (RE.match_mem hm) (lookup_mem hl) with h1 | ⟨a, ha, _⟩
    · simp at h1
    · simp [h] at ha

end Verif
