import Verif.Props.RoundGroups
import Verif.Props.TafGlue
import Verif.Lemmas.TafApart

/-
The words of a TAF record, its sections, and the groups they are read as.
-/

namespace Verif.Props
open Spec MetarRegExp

/-! ### Words -/

theorem station_chars {s : PyStr} (h : StationCode s) : ∀ c ∈ s, calmChar c = true := by
  intro c hc
  have h1 := h.2.1 c hc
  have key : ∀ k : Fin 91, 48 ≤ k.1 → (k.1 ≤ 57 ∨ 65 ≤ k.1) → calmChar k.1 = true := by decide +kernel
  exact key ⟨c, by omega⟩ (by show 48 ≤ c; omega) (by show c ≤ 57 ∨ 65 ≤ c; omega)

theorem station_digits {s : PyStr} (h : StationCode s) : s.all isDigit = false := by
  obtain ⟨hl, -, hh⟩ := h
  cases hs : s with
  | nil => rw [hs] at hl; simp at hl
  | cons c t =>
    have := hh c (by rw [hs]; rfl)
    have key : ∀ k : Fin 91, 65 ≤ k.1 → isDigit k.1 = false := by decide +kernel
    have hc := key ⟨c, by omega⟩ this.1
    rw [List.all_cons]
    simp only at hc
    rw [hc]; rfl

theorem words_calm {v : VisGroup} (h : v.WF) (hu : ∀ w ∈ v.words, 95 ∉ w) {w : PyStr} (hw : w ∈ v.words) :
    Calm w := by
  have hu := hu w hw
  obtain ⟨h1, h2⟩ := words_unbarred h hw
  have key : (∀ kw ∈ tafWords, ¬ kw <+: w) ∧ ∀ e ∈ tafEnds, ¬ e <:+ w := by
    unfold VisGroup.words at hw
    split at hw
    · next ds a b =>
      obtain ⟨q1, q2⟩ := h
      obtain ⟨hl, hd⟩ := q1 ds rfl
      obtain ⟨ha, hb⟩ := q2 a b rfl
      have hdig : ∀ {c t}, isDigit c = true → w = c :: t → ∀ kw ∈ tafWords, ¬ kw <+: w := by
        rintro c t hc rfl kw hk hp
        have : ∀ kw ∈ tafWords, kw ≠ [] ∧ ∀ c, kw.head? = some c → isDigit c = false := by decide +kernel
        cases kw with
        | nil => exact (this [] hk).1 rfl
        | cons x kw =>
          obtain ⟨u, hu⟩ := hp
          simp only [List.cons_append, List.cons.injEq] at hu
          have := (this _ hk).2 x rfl
          rw [hu.1, hc] at this
          cases this
      simp only [List.mem_cons, List.not_mem_nil, or_false] at hw
      rcases hw with rfl | rfl
      · have hne : w ≠ [] := by rintro rfl; simp at hl
        obtain ⟨c, t, rfl⟩ := List.exists_cons_of_ne_nil hne
        refine ⟨hdig (hd c (by simp)) rfl, fun e he hs => ?_⟩
        have : 3 ≤ e.length := by
          have : ∀ e ∈ tafEnds, 3 ≤ e.length := by decide
          exact this e he
        have := hs.length_le
        omega
      · refine ⟨hdig ha rfl, noEnds_of_last (c := 77) (by simp) (by decide) (by decide)⟩
    · rw [List.mem_singleton] at hw
      subst hw
      exact ⟨fun kw hk => (vis_quiet h).1.opens kw (List.mem_append_right _ hk), vis_ends h⟩
  exact ⟨h1, h2, fun ⟨kw, hk, hp⟩ => key.1 kw hk hp, hu, key.2⟩

theorem conds_calm {c : Conditions} (h : c.WF) {w : PyStr} (hw : w ∈ c.words) : Calm w := by
  simp only [Conditions.words, Conditions.sky, List.mem_append, List.mem_map, Option.mem_toList,
    List.mem_flatMap] at hw
  rcases hw with ⟨g, hg, rfl⟩ | ⟨g, hg, hw⟩ | ⟨g, hg, rfl⟩ | ⟨g, hg, rfl⟩
  · have := wind_fact (h.wind g hg)
    exact this.calm (by simp [calmPatterns]) (this.ne (by decide +kernel))
  · obtain ⟨h1, -, h3⟩ := h.vis g hg
    exact words_calm h1 h3 hw
  · exact (weather_fact g).calm (by simp [calmPatterns]) (h.weathers.2 g hg)
  · have := layer_fact (h.clouds.2 g hg)
    exact this.calm (by simp [calmPatterns]) (this.ne (by decide +kernel))

theorem valid_calm {v : ValidGroup} (h : v.WF) : Calm v.text :=
  (valid_fact h).calm (by simp [calmPatterns]) ((valid_fact h).ne (by decide +kernel))

theorem rest_calm {c : TafChange} (h : c.WF) {w : PyStr} (hw : w ∈ c.rest) : Calm w := by
  simp only [TafChange.rest, List.mem_append, List.mem_map, Option.mem_toList] at hw
  rcases hw with ⟨v, hv, rfl⟩ | hw
  · exact valid_calm (h.valid v hv)
  · exact conds_calm h.conds hw

/-- The words of the body after the station. -/
def later (r : TafRecord) : List PyStr :=
  timeText r.day r.hour r.minute :: ((if r.missing then [py!"NIL"] else []) ++
    (r.valid.toList.map ValidGroup.text ++ ((if r.cancelled then [py!"CNL"] else []) ++
      (r.conds.words ++ r.temps.map TafTempGroup.text))))

theorem body_eq (r : TafRecord) : r.body = r.modifier.toList ++ (r.station :: later r) := by
  simp [TafRecord.body, TafRecord.front, later]

theorem later_calm {r : TafRecord} (h : r.WF) (ht : (1 ≤ r.day ∧ r.day ≤ 31) ∧ r.hour ≤ 23 ∧ r.minute ≤ 59)
    {w : PyStr} (hw : w ∈ later r) : Calm w := by
  simp only [later, List.mem_append, List.mem_cons, Option.mem_toList, List.mem_map] at hw
  rcases hw with hw | hw | ⟨v, hv, rfl⟩ | hw | hw | ⟨g, hg, rfl⟩
  · have := time_fact ht.1 ht.2.1 ht.2.2
    exact hw ▸ this.calm (by simp [calmPatterns]) (this.ne (by decide +kernel))
  · split at hw
    · rw [List.mem_singleton.1 hw]
      exact nil_fact.calm (by simp [calmPatterns]) (by decide)
    · simp at hw
  · exact valid_calm (h.valid v hv)
  · split at hw
    · rw [List.mem_singleton.1 hw]
      exact cnl_fact.calm (by simp [calmPatterns]) (by decide)
    · simp at hw
  · exact conds_calm h.conds hw
  · exact tafTemp_calm (h.temps g hg)

/-- The words of the body other than the station. -/
theorem body_calm {r : TafRecord} (h : r.WF) (ht : (1 ≤ r.day ∧ r.day ≤ 31) ∧ r.hour ≤ 23 ∧ r.minute ≤ 59)
    {w : PyStr} (hw : w ∈ r.body) : w = r.station ∨ Calm w := by
  rw [body_eq, List.mem_append, List.mem_cons, Option.mem_toList] at hw
  rcases hw with hw | hw | hw
  · have := amd_fact (h.modifier w hw)
    exact .inr (this.calm (by simp [calmPatterns]) (this.ne (by decide +kernel)))
  · exact .inl hw
  · exact .inr (later_calm h ht hw)

/-- The words of the openings. -/
theorem opening_words {k : ChangeKind} (h : ∀ g, k = .fm g → g.WF) :
    ∀ w ∈ k.words, (Unbarred w ∧ 95 ∉ w) ∧ ¬ py!"TAF" <:+ w := by
  have lit : ∀ w ∈ [py!"TEMPO", py!"BECMG", py!"PROB30", py!"PROB40"],
      (Unbarred w ∧ 95 ∉ w) ∧ ¬ py!"TAF" <:+ w := by
    intro w hw
    have h1 : ∀ w ∈ [py!"TEMPO", py!"BECMG", py!"PROB30", py!"PROB40"],
        ((∀ c ∈ w, calmChar c = true) ∧ w ≠ []) ∧ ¬ py!"TAF" <:+ w := by decide
    exact ⟨calm_chars (h1 w hw).1.1 (h1 w hw).1.2, (h1 w hw).2⟩
  cases k with
  | tempo => intro w hw; exact lit w (by simp [ChangeKind.words] at hw; simp [hw])
  | becmg => intro w hw; exact lit w (by simp [ChangeKind.words] at hw; simp [hw])
  | prob f t =>
    intro w hw
    apply lit
    simp only [ChangeKind.words, List.mem_cons] at hw
    rcases hw with rfl | hw
    · cases f <;> simp
    · cases t
      · simp at hw
      · simp at hw; simp [hw]
  | fm g =>
    intro w hw
    rw [List.mem_singleton.1 hw]
    obtain ⟨-, h1, a, b, e, ha, hb, -⟩ := h g rfl
    have hm : ∀ c ∈ g.minute, isDigit c = true := by
      rw [e]
      intro c hc
      simp only [List.mem_cons, List.not_mem_nil, or_false] at hc
      rcases hc with rfl | rfl
      · exact AsciiDigit.isDigit ha
      · exact hb
    refine ⟨calm_chars ?_ (by simp [FmGroup.text]), ?_⟩
    · intro c hc
      simp only [FmGroup.text, List.mem_append] at hc
      rcases hc with ((hc | hc) | hc) | hc
      · revert c; decide
      · exact calmChar_digit (padNat_digits _ _ c hc)
      · exact calmChar_digit (hour_digits h1 c hc)
      · exact calmChar_digit (hm c hc)
    · rintro ⟨p, hp⟩
      have := congrArg List.getLast? hp
      rw [FmGroup.text, e, List.getLast?_append, List.getLast?_append] at this
      simp at this
      rw [← this] at hb
      exact absurd hb (by decide +kernel)

theorem kind_opens (k : ChangeKind) : Opens tafWords k.group := by
  cases k with
  | tempo => decide
  | becmg => decide
  | prob f t => cases f <;> cases t <;> decide
  | fm g =>
    refine ⟨py!"FM", by simp [tafWords], padNat 2 g.day ++ g.hour ++ g.minute, ?_⟩
    simp [ChangeKind.group, ChangeKind.text, ChangeKind.words, join, FmGroup.text]

theorem kind_end {k : ChangeKind} (h : ∀ g, k = .fm g → g.WF) : ¬ py!"TAF" <:+ k.group := by
  cases k with
  | tempo => decide
  | becmg => decide
  | prob f t => cases f <;> cases t <;> decide
  | fm g =>
    have := (opening_words h (ChangeKind.fm g).group (by
      simp [ChangeKind.group, ChangeKind.text, ChangeKind.words, join])).2
    exact this

theorem kind_alone {k : ChangeKind} (h : k.words.length ≠ 2) : k.words = [k.group] := by
  cases k with
  | tempo => rfl
  | becmg => rfl
  | prob f t =>
    cases t
    · rfl
    · simp [ChangeKind.words] at h
  | fm g => rfl

/-! ### Joining probabilities -/

theorem joinProbs_front {A : List PyStr} (h : ∀ w ∈ A, ∀ v, isProb w v = false) (n : Nat) (l : List PyStr) :
    joinProbs n (A ++ l) = A ++ joinProbs n l := by
  induction A with
  | nil => rfl
  | cons w A ih =>
    rw [List.cons_append, joinProbs_cons (h w (by simp)), ih fun w hw => h w (List.mem_cons_of_mem _ hw)]
    rfl

theorem joinProbs_skip {w v : PyStr} (h : isProb w v = false) (hv : ∀ u, isProb v u = false) (n : Nat)
    (l : List PyStr) : joinProbs n (w :: v :: l) = w :: v :: joinProbs n l := by
  have h1 : ∀ l, joinProb (v :: l) = (joinProb l).map (v :: ·) := by
    intro l
    cases l with
    | nil => rfl
    | cons x l => rw [joinProb, hv, if_neg (by simp)]
  induction n generalizing l with
  | zero => rfl
  | succ n ih =>
    unfold joinProbs
    rw [joinProb, h, if_neg (by simp), h1]
    cases joinProb l with
    | none => rfl
    | some l' => exact ih l'

theorem joinProbs_nil (n : Nat) : joinProbs n [] = [] := by cases n <;> rfl

/-- How many pairs the opening has. -/
def pairs (c : TafChange) : Nat := if c.kind.words.length = 2 then 1 else 0

theorem group_prob (k : ChangeKind) (h : ∀ g, k = .fm g → g.WF) (hk : ∀ f, k ≠ .prob f false) (v : PyStr) :
    isProb k.group v = false := by
  have lit : ∀ w ∈ [py!"TEMPO", py!"BECMG", py!"PROB30_TEMPO", py!"PROB40_TEMPO"],
      ¬ py!"PROB30" <:+ w ∧ ¬ py!"PROB40" <:+ w := by decide
  have of : ∀ w, (¬ py!"PROB30" <:+ w ∧ ¬ py!"PROB40" <:+ w) → isProb w v = false := by
    rintro w ⟨h1, h2⟩
    rw [Bool.eq_false_iff]
    intro hp
    simp only [isProb, Bool.and_eq_true, Bool.or_eq_true, List.isSuffixOf_iff_suffix] at hp
    rcases hp.1 with h | h
    · exact h1 h
    · exact h2 h
  cases k with
  | tempo => exact of _ (lit _ (by simp [ChangeKind.group, ChangeKind.text, ChangeKind.words, join]))
  | becmg => exact of _ (lit _ (by simp [ChangeKind.group, ChangeKind.text, ChangeKind.words, join]))
  | prob f t =>
    cases t
    · exact absurd rfl (hk f)
    · exact of _ (lit _ (by cases f <;> simp [ChangeKind.group]))
  | fm g =>
    rw [Bool.eq_false_iff]
    intro hp
    obtain ⟨p, d, t, e, -⟩ := isProb_iff.1 hp
    obtain ⟨-, h1, a, b, e2, ha, hb, -⟩ := h g rfl
    have h66 : isDigit 66 = false := by decide +kernel
    have hmem : (66 : Nat) ∈ g.text := by
      have : (66 : Nat) ∈ p ++ (py!"PROB" ++ d :: py!"0") := by simp
      rw [← e] at this
      exact this
    simp only [FmGroup.text, List.mem_append] at hmem
    rcases hmem with ((hc | hc) | hc) | hc
    · exact absurd hc (by decide)
    · have := padNat_digits _ _ _ hc; rw [h66] at this; cases this
    · have := hour_digits h1 _ hc; rw [h66] at this; cases this
    · rw [e2] at hc
      simp only [List.mem_cons, List.not_mem_nil, or_false] at hc
      rcases hc with rfl | rfl
      · obtain ⟨-, h⟩ := ha; omega
      · rw [h66] at hb; cases hb

theorem joinProbs_change {c : TafChange} (h : c.WF) {n : Nat} (hn : pairs c ≤ n) (l : List PyStr) :
    joinProbs n (c.words ++ l) = c.kind.group :: (c.rest ++ joinProbs (n - pairs c) l) := by
  have hrest : ∀ w ∈ c.rest, ∀ v, isProb w v = false := fun w hw v => (rest_calm h hw).noProb v
  have hfm : ∀ g, c.kind = .fm g → g.WF := fun g hg => (h.fm g hg).1
  by_cases h2 : c.kind.words.length = 2
  · obtain ⟨f, hk⟩ : ∃ f, c.kind = .prob f true := by
      cases hk : c.kind with
      | prob f t => cases t <;> simp [hk, ChangeKind.words] at h2 ⊢
      | _ => simp [hk, ChangeKind.words] at h2
    have hp : pairs c = 1 := by unfold pairs; rw [if_pos h2]
    rw [hp] at hn ⊢
    obtain ⟨n, rfl⟩ : ∃ k, n = k + 1 := ⟨n - 1, by omega⟩
    have hg := group_prob c.kind hfm (by simp [hk])
    rw [hk] at hg ⊢
    simp only [TafChange.words, hk, ChangeKind.words, if_true, List.cons_append, List.nil_append]
    have hpr : isProb (if f then py!"PROB40" else py!"PROB30") py!"TEMPO" = true := by cases f <;> decide
    rw [joinProbs, joinProb, if_pos hpr]
    simp only
    have e : (if f then py!"PROB40" else py!"PROB30") ++ py!"_" ++ py!"TEMPO" = ChangeKind.group (.prob f true) := by
      cases f <;> rfl
    rw [e, joinProbs_cons hg, joinProbs_front hrest]
    simp
  · have hp : pairs c = 0 := by unfold pairs; rw [if_neg h2]
    rw [hp, Nat.sub_zero, TafChange.words, kind_alone h2, List.append_assoc, List.singleton_append]
    by_cases hk : ∃ f, c.kind = .prob f false
    · obtain ⟨f, hk⟩ := hk
      obtain ⟨v, vs, hv⟩ := List.exists_cons_of_ne_nil (h.prob f hk)
      have hc : Calm v := rest_calm h (by rw [hv]; simp)
      have hpr : isProb c.kind.group v = false := by
        rw [Bool.eq_false_iff]
        intro hp
        simp only [isProb, Bool.and_eq_true, List.isPrefixOf_iff_prefix] at hp
        exact hc.taf ⟨_, by simp [tafWords], hp.2⟩
      rw [hv] at hrest ⊢
      rw [List.cons_append, joinProbs_skip hpr hc.noProb,
        joinProbs_front fun w hw => hrest w (List.mem_cons_of_mem _ hw)]
      rfl
    · rw [joinProbs_cons (group_prob c.kind hfm fun f hf => hk ⟨f, hf⟩), joinProbs_front hrest]

theorem joinProbs_changes {cs : List TafChange} (h : ∀ c ∈ cs, c.WF) {n : Nat}
    (hn : (cs.filter fun c => c.kind.words.length = 2).length ≤ n) :
    joinProbs n (cs.flatMap TafChange.words) = cs.flatMap fun c => c.kind.group :: c.rest := by
  induction cs generalizing n with
  | nil => exact joinProbs_nil n
  | cons c cs ih =>
    have hc : pairs c + (cs.filter fun c => c.kind.words.length = 2).length ≤ n := by
      unfold pairs
      by_cases h2 : c.kind.words.length = 2
      · rw [List.filter_cons, if_pos (by simpa using h2), List.length_cons] at hn
        rw [if_pos h2]; omega
      · rw [List.filter_cons, if_neg (by simpa using h2)] at hn
        rw [if_neg h2]; omega
    rw [List.flatMap_cons, List.flatMap_cons, joinProbs_change (h c (by simp)) (by omega),
      ih (fun c hc => h c (List.mem_cons_of_mem _ hc)) (by omega)]
    rfl

/-! ### Sections -/

/-- The text of a change as the sections hold it. -/
def changeCode (c : TafChange) : PyStr := join [32] (c.kind.group :: c.rest)

theorem taf_sections {r : TafRecord} (h : r.WF)
    (ht : (1 ≤ r.day ∧ r.day ≤ 31) ∧ r.hour ≤ 23 ∧ r.minute ≤ 59) :
    (∀ w ∈ r.words, Unbarred w) ∧ normalizeCode (join [32] r.words) = join [32] r.words ∧
    tafSections (join [32] r.words) = (join [32] (py!"TAF" :: r.body), r.changes.map changeCode) := by
  have hstat : Unbarred r.station ∧ 95 ∉ r.station :=
    calm_chars (station_chars h.station) (by have := h.station.1; rintro e; rw [e] at this; simp at this)
  have hbody : ∀ w ∈ r.body, (Unbarred w ∧ 95 ∉ w) ∧ ∀ v, isProb w v = false := by
    intro w hw
    rcases body_calm h ht hw with rfl | hc
    · exact ⟨hstat, not_prob_short (by rw [h.station.1]; decide)⟩
    · exact ⟨⟨hc.unbarred, hc.under⟩, hc.noProb⟩
  have hchange : ∀ w ∈ r.changes.flatMap TafChange.words, Unbarred w ∧ 95 ∉ w := by
    intro w hw
    obtain ⟨c, hc, hw⟩ := List.mem_flatMap.1 hw
    have hwf := h.changes.2 c hc
    rcases List.mem_append.1 hw with hw | hw
    · exact (opening_words (fun g hg => (hwf.fm g hg).1) w hw).1
    · have := rest_calm hwf hw
      exact ⟨this.unbarred, this.under⟩
  have hall : ∀ w ∈ r.words, Unbarred w ∧ 95 ∉ w := by
    intro w hw
    rcases List.mem_cons.1 hw with rfl | hw
    · exact calm_chars (by decide) (by decide)
    · rcases List.mem_append.1 hw with hw | hw
      · exact (hbody w hw).1
      · exact hchange w hw
  have hj : joinProbs 5 r.words = py!"TAF" :: r.body ++
      (r.changes.map fun c => (c.kind.group, c.rest)).flatMap fun p => p.1 :: p.2 := by
    rw [TafRecord.words, joinProbs_cons (not_prob_short (by decide)),
      joinProbs_front fun w hw => (hbody w hw).2, joinProbs_changes h.changes.2 h.probs]
    simp [List.flatMap_map]
  have hb0 : r.body ≠ [] := by simp [TafRecord.body, TafRecord.front]
  have hb : ∀ w ∈ r.body.tail, ¬ Opens tafWords w := by
    intro w hw
    rw [body_eq] at hw
    cases hm : r.modifier with
    | none =>
      rw [hm] at hw
      exact (later_calm h ht hw).taf
    | some m =>
      rw [hm] at hw
      rcases List.mem_cons.1 hw with rfl | hw
      · exact h.opens (by simp [hm])
      · exact (later_calm h ht hw).taf
  have hl : ¬ py!"TAF" <:+ r.body.getLast hb0 := by
    have hne : later r ≠ [] := by simp [later]
    have e : r.body.getLast hb0 = (later r).getLast hne := by
      simp only [body_eq, List.getLast_append_of_ne_nil, ne_eq, reduceCtorEq, not_false_eq_true,
        List.getLast_cons hne]
    rw [e]
    exact (later_calm h ht (List.getLast_mem hne)).ends _ (by simp [tafEnds])
  obtain ⟨h1, h2⟩ := tafSections_glued (bs := r.body)
    (changes := r.changes.map fun c => (c.kind.group, c.rest)) hall hj hb0
    (fun w hw => (hbody w hw).1.2) hb hl (by
      intro p hp
      obtain ⟨c, hc, rfl⟩ := List.mem_map.1 hp
      refine ⟨kind_opens _, kind_end fun g hg => ((h.changes.2 c hc).fm g hg).1, fun w hw => ?_⟩
      have := rest_calm (h.changes.2 c hc) hw
      exact ⟨this.taf, this.ends _ (by simp [tafEnds])⟩)
  refine ⟨fun w hw => (hall w hw).1, h1, ?_⟩
  rw [h2, List.map_map]
  rfl

/-! ### Groups -/

/-- The groups of the conditions. -/
def condGroups (c : Conditions) : List PyStr :=
  c.wind.toList.map WindGroup.text ++ (c.vis.toList.map VisGroup.text ++ c.sky)

theorem sky_miles {c : Conditions} (h : c.WF) {w : PyStr} (hw : w ∈ c.sky) : ¬ Miles w := by
  simp only [Conditions.sky, List.mem_append, List.mem_map] at hw
  rcases hw with ⟨g, hg, rfl⟩ | ⟨g, hg, rfl⟩
  · exact (weather_fact g).noMiles (by simp [milelessPatterns])
  · exact (layer_fact (h.clouds.2 g hg)).noMiles (by simp [milelessPatterns])

theorem front_digits {r : TafRecord} (h : r.WF)
    (ht : (1 ≤ r.day ∧ r.day ≤ 31) ∧ r.hour ≤ 23 ∧ r.minute ≤ 59) {w : PyStr} (hw : w ∈ r.front) :
    w.all isDigit = false := by
  simp only [TafRecord.front, List.mem_append, List.mem_cons, Option.mem_toList, List.mem_map] at hw
  rcases hw with hw | hw | hw | hw | ⟨v, hv, rfl⟩ | hw
  · exact (amd_fact (h.modifier w hw)).noDigits' (by simp [tafDigitless])
  · exact hw ▸ station_digits h.station
  · exact hw ▸ (time_words ht).2.1
  · split at hw
    · rw [List.mem_singleton.1 hw]; decide +kernel
    · simp at hw
  · exact (valid_fact (h.valid v hv)).noDigits' (by simp [tafDigitless])
  · split at hw
    · rw [List.mem_singleton.1 hw]; decide +kernel
    · simp at hw

/-- The groups of the body of a record. -/
def tafGroupsOf (r : TafRecord) : List PyStr :=
  py!"TAF" :: (r.front ++ (condGroups r.conds ++ r.temps.map TafTempGroup.text))

theorem taf_groups {r : TafRecord} (h : r.WF)
    (ht : (1 ≤ r.day ∧ r.day ≤ 31) ∧ r.hour ≤ 23 ∧ r.minute ≤ 59) :
    bodyGroups (join [32] (py!"TAF" :: r.body)) = tafGroupsOf r := by
  have hsolid : ∀ w ∈ py!"TAF" :: r.body, Solid w := fun w hw c hc =>
    (((taf_sections h ht).1 w (by
      rw [TafRecord.words, ← List.cons_append]; exact List.mem_append_left _ hw)).1.2 c hc).1
  unfold bodyGroups
  rw [C55_visibility_words _ _ hsolid]
  have e : r.body = (r.front ++ r.conds.wind.toList.map WindGroup.text) ++
      (r.conds.vis.toList.flatMap VisGroup.words ++ (r.conds.sky ++ r.temps.map TafTempGroup.text)) := by
    simp [TafRecord.body, Conditions.words]
  rw [e, joinPairs_words (n := 2) ?_ (fun g hg => (h.conds.vis g hg).1) ?_ h.goesOn]
  · simp [tafGroupsOf, condGroups]
  · intro w hw
    rcases List.mem_append.1 hw with hw | hw
    · exact front_digits h ht hw
    · simp only [List.mem_map, Option.mem_toList] at hw
      obtain ⟨g, hg, rfl⟩ := hw
      exact (wind_fact (h.conds.wind g hg)).noDigits' (by simp [tafDigitless])
  · intro w hw
    rcases List.mem_append.1 hw with hw | hw
    · exact sky_miles h.conds hw
    · obtain ⟨g, -, rfl⟩ := List.mem_map.1 hw
      exact tafTemp_noMiles g

/-- The groups of a change. -/
def changeGroupsOf (c : TafChange) : List PyStr :=
  c.kind.group :: (c.valid.toList.map ValidGroup.text ++ condGroups c.conds)

theorem change_shown {c : TafChange} (h : c.WF) : shown (changeCode c) = join [32] c.words := by
  have hrest : c.rest.map shown = c.rest := by
    rw [List.map_eq_iff]
    intro i
    cases hi : c.rest[i]? with
    | none => rfl
    | some w =>
      have := rest_calm h (List.mem_of_getElem? hi)
      rw [Option.map_some, shown_self this.under]
  unfold changeCode
  rw [shown_join, List.map_cons, hrest]
  by_cases h2 : c.kind.words.length = 2
  · obtain ⟨f, hk⟩ : ∃ f, c.kind = .prob f true := by
      cases hk : c.kind with
      | prob f t => cases t <;> simp [hk, ChangeKind.words] at h2 ⊢
      | _ => simp [hk, ChangeKind.words] at h2
    rw [TafChange.words, hk]
    have e : shown (ChangeKind.group (.prob f true)) = (if f then py!"PROB40" else py!"PROB30") ++ 32 :: py!"TEMPO" := by
      cases f <;> decide
    rw [e]
    simp only [ChangeKind.words, if_true, List.cons_append, List.nil_append]
    rw [join_cons_ne (w := if f then py!"PROB40" else py!"PROB30") (by simp)]
    cases c.rest with
    | nil => simp [join]
    | cons v vs =>
      rw [join_cons_ne (ws := v :: vs) (by simp), join_cons_ne (w := py!"TEMPO") (by simp)]
      simp
  · rw [TafChange.words, kind_alone h2, shown_self]
    · rfl
    · have := opening_words (k := c.kind) (fun g hg => (h.fm g hg).1)
      rw [kind_alone h2] at this
      exact (this _ (by simp)).1.2

theorem change_words {c : TafChange} (h : c.WF) : ∀ w ∈ c.words, Unbarred w := by
  intro w hw
  rcases List.mem_append.1 hw with hw | hw
  · exact (opening_words (fun g hg => (h.fm g hg).1) w hw).1.1
  · exact (rest_calm h hw).unbarred

theorem group_solid {k : ChangeKind} (h : ∀ g, k = .fm g → g.WF) : Solid k.group := by
  by_cases h2 : k.words.length = 2
  · obtain ⟨f, rfl⟩ : ∃ f, k = .prob f true := by
      cases hk : k with
      | prob f t => cases t <;> simp [hk, ChangeKind.words] at h2 ⊢
      | _ => simp [hk, ChangeKind.words] at h2
    intro c hc
    revert c
    cases f <;> decide
  · have := opening_words h
    rw [kind_alone h2] at this
    exact fun c hc => ((this _ (by simp)).1.1.1.2 c hc).1

theorem change_groups {c : TafChange} (h : c.WF) : changeGroups (join [32] c.words) = changeGroupsOf c := by
  have hsolid : ∀ w ∈ c.words, Solid w := fun w hw x hx => ((change_words h w hw).1.2 x hx).1
  have hj : joinProbs 5 c.words = c.kind.group :: c.rest := by
    have := joinProbs_change h (n := 5) (by unfold pairs; split <;> omega) []
    rwa [List.append_nil, joinProbs_nil, List.append_nil] at this
  unfold changeGroups
  rw [C55_change_indicator_words _ hsolid, hj, C55_visibility_words]
  · have e : c.rest = (c.valid.toList.map ValidGroup.text ++ c.conds.wind.toList.map WindGroup.text) ++
        (c.conds.vis.toList.flatMap VisGroup.words ++ c.conds.sky) := by
      simp [TafChange.rest, Conditions.words]
    rw [e, joinPairs_words (n := 2) ?_ (fun g hg => (h.conds.vis g hg).1) (fun w hw => sky_miles h.conds hw)
      h.goesOn]
    · simp [changeGroupsOf, condGroups]
    · intro w hw
      rcases List.mem_append.1 hw with hw | hw
      · simp only [List.mem_map, Option.mem_toList] at hw
        obtain ⟨g, hg, rfl⟩ := hw
        exact (valid_fact (h.valid g hg)).noDigits' (by simp [tafDigitless])
      · simp only [List.mem_map, Option.mem_toList] at hw
        obtain ⟨g, hg, rfl⟩ := hw
        exact (wind_fact (h.conds.wind g hg)).noDigits' (by simp [tafDigitless])
  · intro w hw
    rcases List.mem_cons.1 hw with rfl | hw
    · exact group_solid fun g hg => (h.fm g hg).1
    · exact fun x hx => ((rest_calm h hw).unbarred.1.2 x hx).1

end Verif.Props
