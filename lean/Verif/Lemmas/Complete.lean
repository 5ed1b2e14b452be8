import Verif.Spec.Complete
import Verif.Lemmas.Decoded

/-
Lemmas for reports that are read completely and reports that are cut short.
-/

namespace Verif

variable {σ : Type}

theorem leftover_none (g : PyStr) (gs : List PyStr) (asg : List (Option Nat)) :
    Spec.leftover (g :: gs) (none :: asg) = g :: Spec.leftover gs asg := by
  simp [Spec.leftover]

theorem leftover_some (g : PyStr) (gs : List PyStr) (i : Nat) (asg : List (Option Nat)) :
    Spec.leftover (g :: gs) (some i :: asg) = Spec.leftover gs asg := by
  simp [Spec.leftover]

/-- The loop takes every group if the groups fit the patterns it has left. -/
theorem assign_fits (hs : List (Handler σ)) (gs : List PyStr) (k : Nat) :
    Spec.leftover gs (assign hs k gs) = [] ↔ Spec.Fits ((hs.drop k).map Handler.regexp) gs := by
  induction gs generalizing k with
  | nil =>
    constructor
    · exact fun _ => ⟨[], List.nil_sublist _, .nil⟩
    · exact fun _ => rfl
  | cons g gs ih =>
    unfold assign
    cases ht : tryHandlers (hs.drop k) g 0 with
    | none =>
      simp only [leftover_none]
      constructor
      · intro h; simp at h
      · rintro ⟨ps, hs1, he⟩
        cases he with
        | cons hm _ =>
          have hp := hs1.subset (List.mem_cons_self ..)
          obtain ⟨h, hh, rfl⟩ := List.mem_map.1 hp
          rw [tryHandlers_none.1 ht h hh] at hm
          simp at hm
    | some x =>
      obtain ⟨n, m, h⟩ := x
      obtain ⟨i, h1, h2, h3, h4⟩ := tryHandlers_some ht
      have hn : k + n = k + (i + 1) := by omega
      simp only [leftover_some]
      rw [ih (k + n), hn, ← List.drop_drop]
      generalize hs.drop k = l at h2 h4 ⊢
      obtain ⟨hlt, hget⟩ := List.getElem?_eq_some_iff.1 h2
      constructor
      · rintro ⟨ps, hs1, he⟩
        refine ⟨h.regexp :: ps, ?_, .cons (by rw [h3]; rfl) he⟩
        have : (h :: l.drop (i + 1)).Sublist l := by
          rw [← hget, List.getElem_cons_drop]
          exact List.drop_sublist i l
        exact (hs1.cons_cons _).trans (this.map Handler.regexp)
      · rintro ⟨ps, hs1, he⟩
        cases he with
        | @cons _ p _ ps hm he =>
          obtain ⟨r1, r2, e, hp, hps⟩ := List.cons_sublist_iff.1 hs1
          refine ⟨ps, hps.trans ?_, he⟩
          obtain ⟨j, hj⟩ := List.mem_iff_getElem?.1 hp
          have hj2 := (List.getElem?_eq_some_iff.1 hj).1
          have hij : i ≤ j := by
            refine Nat.le_of_not_lt fun hlt => ?_
            have hj3 : (l.map Handler.regexp)[j]? = some p := by
              rw [e, List.getElem?_append_left hj2, hj]
            rw [List.getElem?_map, Option.map_eq_some_iff] at hj3
            obtain ⟨h', hh', rfl⟩ := hj3
            rw [h4 j h' hlt hh'] at hm
            simp at hm
          have : r2 = (l.map Handler.regexp).drop r1.length := by rw [e]; simp
          rw [this, ← List.map_drop]
          rw [show r1.length = (i + 1) + (r1.length - (i + 1)) by omega, ← List.drop_drop]
          exact (List.drop_sublist _ _).map _

theorem leaves_fits {hs : List (Handler σ)} {gs un : List PyStr} (h : Spec.Leaves hs gs un) :
    un = [] ↔ Spec.Fits (hs.map Handler.regexp) gs := by
  obtain ⟨asg, h1, h2, rfl⟩ := h
  rw [firstApplicable_unique hs gs asg _ h1 (assign_length hs 0 gs) h2 (assign_firstApplicable hs gs)]
  simpa using assign_fits hs gs 0

/-! ### A front part of the groups -/

theorem assign_append (hs : List (Handler σ)) (gs more : List PyStr) (k : Nat) :
    ∃ k', assign hs k (gs ++ more) = assign hs k gs ++ assign hs k' more := by
  induction gs generalizing k with
  | nil => exact ⟨k, rfl⟩
  | cons g gs ih =>
    cases ht : tryHandlers (hs.drop k) g 0 with
    | none =>
      obtain ⟨k', e⟩ := ih k
      exact ⟨k', by simp [assign, ht, e]⟩
    | some x =>
      obtain ⟨k', e⟩ := ih (k + x.1)
      exact ⟨k', by simp [assign, ht, e]⟩

theorem consumed_append {gs more : List PyStr} {a b : List (Option Nat)} (h : a.length = gs.length) :
    Spec.consumed (gs ++ more) (a ++ b) = Spec.consumed gs a ++ Spec.consumed more b := by
  unfold Spec.consumed
  rw [List.zip_append h.symm, List.filterMap_append]

theorem leftover_append {gs more : List PyStr} {a b : List (Option Nat)} (h : a.length = gs.length) :
    Spec.leftover (gs ++ more) (a ++ b) = Spec.leftover gs a ++ Spec.leftover more b := by
  unfold Spec.leftover
  rw [List.zip_append h.symm, List.filterMap_append]

theorem decodes_append {hs : List (Handler σ)} {gs more : List PyStr} {c c' : List (PyStr × Nat)}
    (h : Spec.Decodes hs gs c) (h' : Spec.Decodes hs (gs ++ more) c') : c <+: c' := by
  rw [decodes_iff] at h h'
  obtain ⟨k', e⟩ := assign_append hs gs more 0
  rw [h, h', e, consumed_append (assign_length hs 0 gs)]
  exact List.prefix_append _ _

theorem leaves_append {hs : List (Handler σ)} {gs more un un' : List PyStr}
    (h : Spec.Leaves hs gs un) (h' : Spec.Leaves hs (gs ++ more) un') : un <+: un' := by
  obtain ⟨asg, h1, h2, rfl⟩ := h
  obtain ⟨asg', h1', h2', rfl⟩ := h'
  obtain ⟨k', e⟩ := assign_append hs gs more 0
  rw [firstApplicable_unique hs gs asg _ h1 (assign_length hs 0 gs) h2 (assign_firstApplicable hs gs),
    firstApplicable_unique hs _ asg' _ h1' (assign_length hs 0 _) h2' (assign_firstApplicable hs _),
    e, leftover_append (assign_length hs 0 gs)]
  exact List.prefix_append _ _

/-! ### The readings -/

/-- Nothing at or before the position of a group of the front part comes after the front part. -/
theorem ordered_rest {c d : List (PyStr × Nat)} (ho : Ordered (c ++ d)) {g : PyStr} {i : Nat}
    (hg : (g, i) ∈ c) {g' : PyStr} {q : Nat} (hq : q ≤ i) : (g', q) ∉ d := by
  intro hd
  have := (List.pairwise_append.1 ho).2.2 _ hg _ hd
  simp only at this
  omega

theorem ordered_inj {c : List (PyStr × Nat)} (ho : Ordered c) {g g' : PyStr} {i : Nat}
    (h : (g, i) ∈ c) (h' : (g', i) ∈ c) : g = g' := by
  induction c with
  | nil => simp at h
  | cons x c ih =>
    obtain ⟨h1, h2⟩ := List.pairwise_cons.1 ho
    rcases List.mem_cons.1 h with e | h
    · rcases List.mem_cons.1 h' with e' | h'
      · rw [← e] at e'; simpa using e'.symm
      · have := h1 _ h'; rw [← e] at this; simp at this
    · rcases List.mem_cons.1 h' with e' | h'
      · have := h1 _ h; rw [← e'] at this; simp at this
      · exact ih h2 h h'

theorem FromGroup.cut {α : Type} {c d : List (PyStr × Nat)} (ho : Ordered (c ++ d)) {g : PyStr}
    {i : Nat} (hg : (g, i) ∈ c) {q : Nat} {re : RE} {f f' : Match → Except Exc α} {x0 x0' x x' : α}
    (h : Spec.FromGroup c q re f x0 x) (h' : Spec.FromGroup (c ++ d) q re f' x0' x')
    (h0 : x0' = x0) (hf : f' = f) (hq : q ≤ i) : x' = x := by
  subst h0 hf
  have hd : ∀ g', (g', q) ∉ d := fun g' => ordered_rest ho hg hq
  rcases h with ⟨g1, m, e1, e2, e3⟩ | ⟨e1, e2⟩
  · rcases h' with ⟨g2, m', e1', e2', e3'⟩ | ⟨e1', e2'⟩
    · have := ordered_inj ho (List.mem_append_left d e1) e1'
      subst this
      rw [e2, Option.some.injEq] at e2'
      subst e2'
      rw [e3, Except.ok.injEq] at e3'
      exact e3'.symm
    · exact absurd (List.mem_append_left d e1) (e1' g1)
  · rcases h' with ⟨g2, m', e1', e2', e3'⟩ | ⟨e1', e2'⟩
    · rcases List.mem_append.1 e1' with h | h
      · exact absurd h (e1 g2)
      · exact absurd h (hd g2)
    · rw [e2, e2']

theorem taken_append (c d : List (PyStr × Nat)) (lo hi : Nat) :
    Spec.taken (c ++ d) lo hi = Spec.taken c lo hi ++ Spec.taken d lo hi := by
  simp [Spec.taken]

theorem taken_rest {c d : List (PyStr × Nat)} (ho : Ordered (c ++ d)) {g : PyStr} {i : Nat}
    (hg : (g, i) ∈ c) {lo hi : Nat} (hq : hi ≤ i) : Spec.taken d lo hi = [] := by
  unfold Spec.taken
  rw [List.map_eq_nil_iff, List.filter_eq_nil_iff]
  rintro ⟨g', q⟩ hx
  simp only [decide_eq_true_eq]
  intro h
  exact ordered_rest ho hg (Nat.le_trans h.2 hq) hx

theorem each_front {α β : Type} {R : α → β → Prop} (hR : ∀ a b b', R a b → R a b' → b = b')
    {as more : List α} {bs bs' : List β} (h : Spec.Each R as bs) (h' : Spec.Each R (as ++ more) bs') :
    bs <+: bs' ∧ (more = [] → bs' = bs) := by
  induction h generalizing bs' with
  | nil =>
    refine ⟨List.nil_prefix, fun e => ?_⟩
    subst e
    cases h'
    rfl
  | cons h1 h2 ih =>
    cases h' with
    | cons h1' h2' =>
      obtain ⟨i1, i2⟩ := ih h2'
      rw [hR _ _ _ h1 h1']
      exact ⟨(List.prefix_cons_inj _).2 i1, fun e => by rw [i2 e]⟩

theorem FromGroups.cut {α : Type} {c d : List (PyStr × Nat)} (ho : Ordered (c ++ d)) {g : PyStr}
    {i : Nat} (hg : (g, i) ∈ c) {lo hi : Nat} {re : RE} {f : Match → Except Exc α} {xs xs' : List α}
    (h : Spec.FromGroups c lo hi re f xs) (h' : Spec.FromGroups (c ++ d) lo hi re f xs') :
    xs <+: xs' ∧ (hi ≤ i → xs' = xs) := by
  unfold Spec.FromGroups at h h'
  rw [taken_append] at h'
  obtain ⟨h1, h2⟩ := each_front (by
    rintro a b b' ⟨m, e, e2⟩ ⟨m', e', e2'⟩
    rw [e, Option.some.injEq] at e'
    subst e'
    rw [e2, Except.ok.injEq] at e2'
    exact e2') h h'
  exact ⟨h1, fun hq => h2 (taken_rest ho hg hq)⟩

theorem FromLast.cut {α : Type} {c d : List (PyStr × Nat)} (ho : Ordered (c ++ d)) {g : PyStr}
    {i : Nat} (hg : (g, i) ∈ c) {lo hi : Nat} {re : RE} {f : Match → Except Exc α} {x0 x0' x x' : α}
    (h : Spec.FromLast c lo hi re f x0 x) (h' : Spec.FromLast (c ++ d) lo hi re f x0' x')
    (h0 : x0' = x0) (hq : hi ≤ i) : x' = x := by
  subst h0
  unfold Spec.FromLast at h h'
  rw [taken_append, taken_rest ho hg hq, List.append_nil] at h'
  rcases h with ⟨g1, m, e1, e2, e3⟩ | ⟨e1, e2⟩
  · rcases h' with ⟨g2, m', e1', e2', e3'⟩ | ⟨e1', e2'⟩
    · rw [e1, Option.some.injEq] at e1'
      subst e1'
      rw [e2, Option.some.injEq] at e2'
      subst e2'
      rw [e3, Except.ok.injEq] at e3'
      exact e3'.symm
    · rw [e1'] at e1; simp at e1
  · rcases h' with ⟨g2, m', e1', e2', e3'⟩ | ⟨e1', e2'⟩
    · rw [e1] at e1'; simp at e1'
    · rw [e2, e2']

theorem Metar.cut {db : Database} {clock : Clock} {code code' : PyStr} {a : Args} {r r' : Metar}
    (h : Metar.new db clock code a = .ok r) (h' : Metar.new db clock code' a = .ok r')
    {more : List PyStr} (hm : Spec.metarGroups r'.body = Spec.metarGroups r.body ++ more)
    {c : List (PyStr × Nat)}
    (hc : Spec.Decodes (Metar.handlers db (clock 2) a) (Spec.metarGroups r.body) c)
    {g : PyStr} {i : Nat} (hg : (g, i) ∈ c) : Spec.MetarCut i r r' := by
  obtain ⟨c', hc'⟩ : ∃ c', Spec.Decodes (Metar.handlers db (clock 2) a) (Spec.metarGroups r'.body) c' :=
    ⟨_, (decodes_iff _ _ _).2 rfl⟩
  obtain ⟨d, rfl⟩ := decodes_append hc (hm ▸ hc')
  obtain ⟨t, e0, -, e1, -⟩ := Metar.new_decodes h hc
  obtain ⟨t', e0', ho, e1', -⟩ := Metar.new_decodes h' hc'
  rw [e0, Except.ok.injEq] at e0'
  subst e0'
  exact {
    type := FromGroup.cut ho hg e1.type e1'.type rfl rfl (Nat.zero_le _)
    station := FromGroup.cut ho hg e1.station e1'.station rfl rfl
    time := FromGroup.cut ho hg e1.time e1'.time rfl rfl
    modifier := FromGroup.cut ho hg e1.modifier e1'.modifier rfl rfl
    wind := FromGroup.cut ho hg e1.wind e1'.wind rfl rfl
    windVariation := FromGroup.cut ho hg e1.windVariation e1'.windVariation rfl rfl
    prevailing := FromGroup.cut ho hg e1.prevailing e1'.prevailing rfl rfl
    minimum := FromGroup.cut ho hg e1.minimum e1'.minimum rfl rfl
    ranges := FromGroups.cut ho hg e1.ranges.1 e1'.ranges.1
    weathers := FromGroups.cut ho hg e1.weathers.1 e1'.weathers.1
    clouds := FromGroups.cut ho hg e1.clouds.1 e1'.clouds.1
    temperatures := FromGroup.cut ho hg e1.temperatures e1'.temperatures rfl rfl
    pressure := FromLast.cut ho hg e1.pressure e1'.pressure rfl
    recent := FromGroup.cut ho hg e1.recent e1'.recent rfl rfl
    windshears := FromGroups.cut ho hg e1.windshears.1 e1'.windshears.1
    sea := FromGroup.cut ho hg e1.sea e1'.sea rfl rfl
    runwayState := FromGroup.cut ho hg e1.runwayState e1'.runwayState rfl rfl }

theorem Taf.cut {db : Database} {clock : Clock} {code code' : PyStr} {a : Args} {r r' : Taf}
    (h : Taf.new db clock code a = .ok r) (h' : Taf.new db clock code' a = .ok r')
    {more : List PyStr} (hm : Spec.bodyGroups r'.body = Spec.bodyGroups r.body ++ more)
    {c : List (PyStr × Nat)}
    (hc : Spec.Decodes (Taf.handlers db (clock 1) a) (Spec.bodyGroups r.body) c)
    {g : PyStr} {i : Nat} (hg : (g, i) ∈ c) : Spec.TafCut i r r' := by
  obtain ⟨c', hc'⟩ : ∃ c', Spec.Decodes (Taf.handlers db (clock 1) a) (Spec.bodyGroups r'.body) c' :=
    ⟨_, (decodes_iff _ _ _).2 rfl⟩
  obtain ⟨d, rfl⟩ := decodes_append hc (hm ▸ hc')
  obtain ⟨t, v, e0, ev, -, e1, -⟩ := Taf.new_decodes h hc
  obtain ⟨t', v', e0', ev', ho, e1', -⟩ := Taf.new_decodes h' hc'
  rw [e0, Except.ok.injEq] at e0'
  subst e0'
  rw [ev, Except.ok.injEq] at ev'
  subst ev'
  have ht : 3 ≤ i → r'.time = r.time := FromGroup.cut ho hg e1.time e1'.time rfl rfl
  obtain ⟨ts, t1, t2, t3⟩ := e1.temperatures
  obtain ⟨ts', t1', t2', t3'⟩ := e1'.temperatures
  have hts : ts <+: ts' ∧ (19 ≤ i → ts' = ts) := by
    by_cases hn : Spec.taken c 16 19 = []
    · refine ⟨?_, fun hi => ?_⟩
      · unfold Spec.FromGroups at t1
        rw [hn] at t1
        cases t1
        exact List.nil_prefix
      · rw [ht (by omega)] at t1'
        exact (FromGroups.cut ho hg t1 t1').2 hi
    · obtain ⟨g1, hg1⟩ := List.exists_mem_of_ne_nil _ hn
      unfold Spec.taken at hg1
      obtain ⟨⟨g2, j⟩, hx, -⟩ := List.mem_map.1 hg1
      obtain ⟨hx1, hx2⟩ := List.mem_filter.1 hx
      simp only [decide_eq_true_eq] at hx2
      have ht' : r'.time = r.time :=
        FromGroup.cut ho hx1 e1.time e1'.time rfl rfl (Nat.le_trans (by decide) hx2.1)
      rw [ht'] at t1'
      exact FromGroups.cut ho hg t1 t1'
  have hlist : ∀ p : Bool × TafTemperature → Bool,
      (ts.filter p).map (·.2) <+: (ts'.filter p).map (·.2) := fun p => (hts.1.filter p).map _
  exact {
    type := FromGroup.cut ho hg e1.type e1'.type rfl rfl (Nat.zero_le _)
    station := FromGroup.cut ho hg e1.station e1'.station rfl rfl
    time := ht
    modifier := FromGroup.cut ho hg e1.modifier e1'.modifier rfl rfl
    missing := FromGroup.cut ho hg e1.missing e1'.missing rfl rfl
    valid := fun hi => FromGroup.cut ho hg e1.valid e1'.valid rfl (by rw [ht (by omega)]) hi
    cancelled := FromGroup.cut ho hg e1.cancelled e1'.cancelled rfl rfl
    wind := FromGroup.cut ho hg e1.wind e1'.wind rfl rfl
    prevailing := FromGroup.cut ho hg e1.prevailing e1'.prevailing rfl rfl
    weathers := FromGroups.cut ho hg e1.weathers.1 e1'.weathers.1
    clouds := FromGroups.cut ho hg e1.clouds.1 e1'.clouds.1
    maxima := by
      rw [t2, t2']
      exact ⟨hlist _, fun hi => by rw [hts.2 hi]⟩
    minima := by
      rw [t3, t3']
      exact ⟨hlist _, fun hi => by rw [hts.2 hi]⟩ }

end Verif
