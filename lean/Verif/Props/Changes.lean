import Verif.Spec.Changes
import Verif.Lemmas.Times
import Verif.Lemmas.Calendar
import Verif.Props.Time

/-
C46: adding a change to the changes of a TAF.
-/

namespace Verif.Props

theorem startsWith_begins {t p : PyStr} : startsWith t p = true ↔ Spec.Begins p t := by
  unfold startsWith Spec.Begins
  rw [List.isPrefixOf_iff_prefix]
  exact ⟨fun ⟨r, h⟩ => ⟨r, h.symm⟩, fun ⟨r, h⟩ => ⟨r, h.symm⟩⟩

theorem starts_begins {c : ChangeForecasted} {p : PyStr} :
    c.starts p ↔ Spec.IndicatorBegins p c := by
  unfold ChangeForecasted.starts Spec.IndicatorBegins
  simp only [startsWith_begins]

theorem fm_not_passing {x : ChangeForecasted} (h : Spec.IndicatorBegins py!"FM" x) :
    ¬ Spec.Passing x := by
  obtain ⟨t, ht, r, rfl⟩ := h
  rintro (⟨t', ht', r', rfl⟩ | ⟨t', ht', r', rfl⟩) <;> rw [ht] at ht' <;> simp at ht'

/-- The effect of `Closes` by positions. -/
theorem closes_at {u : Time} {l l' : List ChangeForecasted} (h : Closes u l l')
    (hu : u.time.valid = true) :
    l'.length = l.length ∧ ∀ k x, l[k]? = some x →
      (Spec.OpenAt l k l.length → ∃ t, Spec.After u.time (-60) t ∧
        l'[k]? = some { x with indicator := Spec.until_ x.indicator t }) ∧
      (¬ Spec.OpenAt l k l.length → l'[k]? = some x) := by
  rcases h with ⟨h1, rfl⟩ | ⟨pre, x, x', post, rfl, rfl, h1, h2, h3, h4, h5⟩
  · refine ⟨rfl, fun k x hk => ⟨?_, fun _ => hk⟩⟩
    rintro ⟨⟨x', hx, hf⟩, -⟩
    rw [hk] at hx; cases hx
    have := h1 x (List.mem_of_getElem? hk)
    simp only [starts_begins] at this
    exact absurd this (fm_not_passing hf)
  · simp only [starts_begins] at h1 h2 h3 h5
    have hpos : (pre ++ x :: post)[pre.length]? = some x := by simp
    have hopen : ∀ k, Spec.OpenAt (pre ++ x :: post) k (pre ++ x :: post).length →
        k = pre.length := by
      rintro k ⟨⟨y, hy, hf⟩, hp⟩
      by_cases hlt : k < pre.length
      · have := hp pre.length x hlt (by simp) hpos
        rcases this with h | h
        · exact absurd h h2
        · exact absurd h h3
      · by_cases heq : k = pre.length
        · exact heq
        · exfalso
          obtain ⟨n, hn⟩ : ∃ n, k = pre.length + 1 + n := ⟨k - (pre.length + 1), by omega⟩
          rw [hn, List.getElem?_append_right (by omega)] at hy
          have : pre.length + 1 + n - pre.length = n + 1 := by omega
          rw [this, List.getElem?_cons_succ] at hy
          exact fm_not_passing hf (h1 y (List.mem_of_getElem? hy))
    have hself : Spec.IndicatorBegins py!"FM" x →
        Spec.OpenAt (pre ++ x :: post) pre.length (pre ++ x :: post).length := by
      intro hf
      refine ⟨⟨x, hpos, hf⟩, fun i y hi _ hy => ?_⟩
      obtain ⟨n, hn⟩ : ∃ n, i = pre.length + 1 + n := ⟨i - (pre.length + 1), by omega⟩
      rw [hn, List.getElem?_append_right (by omega)] at hy
      have : pre.length + 1 + n - pre.length = n + 1 := by omega
      rw [this, List.getElem?_cons_succ] at hy
      exact h1 y (List.mem_of_getElem? hy)
    refine ⟨by simp, fun k y hy => ⟨fun ho => ?_, fun ho => ?_⟩⟩
    · have hk := hopen k ho
      subst hk
      rw [hpos] at hy
      cases hy
      obtain ⟨⟨y, hy, hf⟩, -⟩ := ho
      rw [hpos] at hy
      cases hy
      rcases h5 with ⟨-, i, hi, rfl⟩ | ⟨hn, -⟩
      · obtain ⟨-, -, t, ht, c, hc, e1, -⟩ := TafIndicator.resetUntil_ok hi
        have hfm : startsWith c py!"FM" = true := by
          obtain ⟨t', ht', hb⟩ := hf
          rw [hc] at ht'
          cases ht'
          exact startsWith_begins.2 hb
        refine ⟨t, (addMinutes_after hu).1 ht, ?_⟩
        rw [e1 hfm]
        simp [Spec.until_, Valid.str, Time.ofDT, Time.str, groupCode]
      · exact absurd hf hn
    · by_cases hk : k = pre.length
      · subst hk
        rw [hpos] at hy
        cases hy
        rcases h5 with ⟨hf, -⟩ | ⟨-, rfl⟩
        · exact absurd (hself hf) ho
        · simp
      · rw [← hy]
        by_cases hlt : k < pre.length
        · rw [List.getElem?_append_left hlt, List.getElem?_append_left hlt]
        · obtain ⟨n, hn⟩ : ∃ n, k = pre.length + 1 + n := ⟨k - (pre.length + 1), by omega⟩
          rw [hn, List.getElem?_append_right (by omega), List.getElem?_append_right (by omega)]
          have : pre.length + 1 + n - pre.length = n + 1 := by omega
          simp only [this, List.getElem?_cons_succ]

theorem ending_iff {c : ChangeForecasted} :
    (startsWith c.code py!"FM" = true ∨ startsWith c.code py!"BECMG" = true) ↔ Spec.Ending c := by
  rw [startsWith_begins, startsWith_begins]; rfl

/-- C46. Adding a change appends it and keeps the earlier ones in place. If it is an FM or BECMG
change, the FM change that only PROB and TEMPO changes follow gets its end moved to one hour before
the start of the new change; nothing else changes. -/
theorem C46_add (g g' : GroupList ChangeForecasted) (new : ChangeForecasted)
    (h : addChange g new = .ok g') (ht : Spec.IsTime new.indicator.valid.from_.time) :
    g' = { g with list := g'.list } ∧ g'.list.length = g.list.length + 1 ∧
    g'.list[g.list.length]? = some new ∧
    ∀ k x, g.list[k]? = some x →
      (Spec.Ending new ∧ Spec.OpenAt g.list k g.list.length →
        ∃ t, Spec.After new.indicator.valid.from_.time (-60) t ∧
          g'.list[k]? = some { x with indicator := Spec.until_ x.indicator t }) ∧
      (¬ (Spec.Ending new ∧ Spec.OpenAt g.list k g.list.length) → g'.list[k]? = some x) := by
  obtain ⟨l', rfl, h1, h2⟩ := addChange_ok h
  rw [ending_iff] at h1 h2
  by_cases he : Spec.Ending new
  · obtain ⟨e1, e2⟩ := closes_at (h1 he) ((isTime_iff _).1 ht)
    refine ⟨rfl, by simp [e1], by simp [← e1], fun k x hk => ?_⟩
    have hlt : k < l'.length := by rw [e1]; exact (List.getElem?_eq_some_iff.1 hk).1
    simp only [List.getElem?_append_left hlt]
    exact ⟨fun ho => (e2 k x hk).1 ho.2, fun ho => (e2 k x hk).2 fun h => ho ⟨he, h⟩⟩
  · have := h2 he
    subst this
    refine ⟨rfl, by simp, by simp, fun k x hk => ?_⟩
    have hlt : k < g.list.length := (List.getElem?_eq_some_iff.1 hk).1
    simp only [List.getElem?_append_left hlt]
    exact ⟨fun ho => absurd ho.1 he, fun _ => hk⟩

theorem resetUntil_total {i : TafIndicator} {u : Time} {t : DT} {c : PyStr}
    (h : u.time.addMinutes (-60) = .ok t) (hc : i.code = some c) : ∃ i', i.resetUntil u = .ok i' := by
  have h : u.time.addHours (-1) = .ok t := h
  unfold TafIndicator.resetUntil
  rw [h, ok_bind]
  simp only [hc]
  split <;> exact ⟨_, rfl⟩

/-- C46. Adding succeeds when there is room, every earlier change has an indicator, and one hour
before the start of the new change exists. -/
theorem C46_succeeds (g : GroupList ChangeForecasted) (new : ChangeForecasted)
    (hr : g.list.length < g.max) (hc : ∀ x ∈ g.list, x.indicator.code ≠ none)
    (ht : Spec.IsTime new.indicator.valid.from_.time)
    (hu : ∃ t, Spec.After new.indicator.valid.from_.time (-60) t) :
    ∃ g', addChange g new = .ok g' := by
  obtain ⟨t, hu⟩ := hu
  have hu := (addMinutes_after ((isTime_iff _).1 ht)).2 hu
  have hgo : ∀ (rest : List ChangeForecasted) (last : ChangeForecasted)
      (temp : List ChangeForecasted), (∀ x ∈ rest, x.indicator.code ≠ none) →
      last.indicator.code ≠ none →
      ∃ rest' temp', addChangeGo new.indicator.valid.from_ rest last temp = .ok (rest', temp') ∧
        rest'.length + temp'.length = rest.length + temp.length + 1 := by
    intro rest
    induction rest with
    | nil =>
      intro last temp _ hl
      unfold addChangeGo
      cases hcd : last.indicator.code with
      | none => exact absurd hcd hl
      | some c =>
        simp only
        split
        · exact ⟨_, _, rfl, by simp⟩
        · split
          · obtain ⟨i, hi⟩ := resetUntil_total hu hcd
            rw [hi]
            exact ⟨_, _, rfl, by simp⟩
          · exact ⟨_, _, rfl, by simp⟩
    | cons x rest ih =>
      intro last temp hrest hl
      unfold addChangeGo
      cases hcd : last.indicator.code with
      | none => exact absurd hcd hl
      | some c =>
        simp only
        split
        · obtain ⟨r', t', h1, h2⟩ := ih x (temp ++ [last]) (fun y hy => hrest y (by simp [hy]))
            (hrest x (by simp))
          exact ⟨r', t', h1, by simp at h2 ⊢; omega⟩
        · split
          · obtain ⟨i, hi⟩ := resetUntil_total hu hcd
            rw [hi]
            exact ⟨_, _, rfl, by simp; omega⟩
          · exact ⟨_, _, rfl, by simp; omega⟩
  have hadd : ∀ (l : List ChangeForecasted) (q : GroupList ChangeForecasted),
      q.list.length + l.length ≤ q.max → ∃ q', addAll q l = .ok q' := by
    intro l
    induction l with
    | nil => intro q _; exact ⟨q, rfl⟩
    | cons a l ih =>
      intro q hq
      simp only [List.length_cons] at hq
      unfold addAll GroupList.add
      rw [if_neg (by omega)]
      exact ih _ (by simp; omega)
  unfold addChange
  split
  · unfold GroupList.add
    rw [if_neg (by omega)]
    exact ⟨_, rfl⟩
  · next last rest hl =>
    have hl' : g.list = rest.reverse ++ [last] := by
      have := congrArg List.reverse hl
      simpa using this
    split
    · obtain ⟨rest', temp', h1, h2⟩ := hgo rest last [] (fun x hx => hc x (by rw [hl']; simp [hx]))
        (hc last (by rw [hl']; simp))
      have hlen : g.list.length = rest.length + 1 := by rw [hl']; simp
      simp only [List.length_nil] at h2
      obtain ⟨q, hq⟩ := hadd temp'.reverse { g with list := rest'.reverse } (by simp; omega)
      rw [h1]
      simp only [hq]
      unfold GroupList.add
      rw [addAll_ok hq, if_neg (by simp; omega)]
      exact ⟨_, rfl⟩
    · unfold GroupList.add
      rw [if_neg (by omega)]
      exact ⟨_, rfl⟩

/-! ### The changes of a report -/

/-- `x` is `x0` apart from the period and text of the indicator and the text buffer. -/
def SameChange (x0 x : ChangeForecasted) : Prop :=
  x.code = x0.code ∧ x.valid = x0.valid ∧ x.unparsed = x0.unparsed ∧
    x.core = { x0.core with string := x.core.string } ∧
    x.indicator.code = x0.indicator.code ∧ x.indicator.valid.from_ = x0.indicator.valid.from_

/-- The list `l` results from the changes `cs` added one after the other. -/
def Built (cs l : List ChangeForecasted) : Prop :=
  l.length = cs.length ∧ ∀ k x0, cs[k]? = some x0 → ∃ x, l[k]? = some x ∧ SameChange x0 x ∧
    ((∀ j, ¬ Spec.ClosedBy cs k j) → x.indicator = x0.indicator) ∧
    ∀ j y, cs[j]? = some y → Spec.ClosedBy cs k j → (∀ j', j < j' → ¬ Spec.ClosedBy cs k j') →
      ∃ t, Spec.After y.indicator.valid.from_.time (-60) t ∧
        x.indicator = Spec.until_ x0.indicator t

theorem SameChange.begins {x0 x : ChangeForecasted} (h : SameChange x0 x) (p : PyStr) :
    Spec.IndicatorBegins p x ↔ Spec.IndicatorBegins p x0 := by
  unfold Spec.IndicatorBegins
  rw [h.2.2.2.2.1]

theorem SameChange.passing {x0 x : ChangeForecasted} (h : SameChange x0 x) :
    Spec.Passing x ↔ Spec.Passing x0 := by
  unfold Spec.Passing
  rw [h.begins, h.begins]

/-- Which period is open only depends on the codes. -/
theorem openAt_same {cs l : List ChangeForecasted} (hl : l.length = cs.length)
    (h : ∀ (k : Nat) x0, cs[k]? = some x0 → ∃ x, l[k]? = some x ∧ SameChange x0 x) (k j : Nat) :
    Spec.OpenAt l k j ↔ Spec.OpenAt cs k j := by
  have h' : ∀ (k : Nat) x, l[k]? = some x → ∃ x0, cs[k]? = some x0 ∧ SameChange x0 x := by
    intro k x hk
    have hlt := (List.getElem?_eq_some_iff.1 hk).1
    obtain ⟨x', h1, h2⟩ := h k _ (List.getElem?_eq_getElem (hl ▸ hlt))
    rw [hk] at h1
    cases h1
    exact ⟨_, List.getElem?_eq_getElem (hl ▸ hlt), h2⟩
  constructor
  · rintro ⟨⟨x, hx, hf⟩, hp⟩
    obtain ⟨x0, h0, hs⟩ := h' k x hx
    refine ⟨⟨x0, h0, (hs.begins _).1 hf⟩, fun i y0 h1 h2 hy => ?_⟩
    obtain ⟨y, hy', hs⟩ := h i y0 hy
    exact hs.passing.1 (hp i y h1 h2 hy')
  · rintro ⟨⟨x0, hx, hf⟩, hp⟩
    obtain ⟨x, h0, hs⟩ := h k x0 hx
    refine ⟨⟨x, h0, (hs.begins _).2 hf⟩, fun i y h1 h2 hy => ?_⟩
    obtain ⟨y0, hy', hs⟩ := h' i y hy
    exact hs.passing.2 (hp i y0 h1 h2 hy')

theorem openAt_append {cs : List ChangeForecasted} {c : ChangeForecasted} {k j : Nat}
    (hj : j ≤ cs.length) (hk : k < j) : Spec.OpenAt (cs ++ [c]) k j ↔ Spec.OpenAt cs k j := by
  unfold Spec.OpenAt
  rw [List.getElem?_append_left (by omega)]
  refine and_congr Iff.rfl ⟨fun h i y h1 h2 hy => ?_, fun h i y h1 h2 hy => ?_⟩
  · exact h i y h1 h2 (by rw [List.getElem?_append_left (by omega)]; exact hy)
  · rw [List.getElem?_append_left (by omega)] at hy
    exact h i y h1 h2 hy

theorem closedBy_append {cs : List ChangeForecasted} {c : ChangeForecasted} {k j : Nat} :
    Spec.ClosedBy (cs ++ [c]) k j ↔
      Spec.ClosedBy cs k j ∨ (j = cs.length ∧ k < j ∧ Spec.Ending c ∧ Spec.OpenAt cs k j) := by
  unfold Spec.ClosedBy
  constructor
  · rintro ⟨h1, ⟨y, hy, he⟩, ho⟩
    by_cases hj : j < cs.length
    · rw [List.getElem?_append_left hj] at hy
      exact .inl ⟨h1, ⟨y, hy, he⟩, (openAt_append (by omega) h1).1 ho⟩
    · have hlt := (List.getElem?_eq_some_iff.1 hy).1
      simp only [List.length_append, List.length_singleton] at hlt
      have : j = cs.length := by omega
      subst this
      simp at hy
      subst hy
      exact .inr ⟨rfl, h1, he, (openAt_append (by omega) h1).1 ho⟩
  · rintro (⟨h1, ⟨y, hy, he⟩, ho⟩ | ⟨rfl, h1, he, ho⟩)
    · have hlt := (List.getElem?_eq_some_iff.1 hy).1
      exact ⟨h1, ⟨y, by rw [List.getElem?_append_left hlt]; exact hy, he⟩,
        (openAt_append (by omega) h1).2 ho⟩
    · exact ⟨h1, ⟨c, by simp, he⟩, (openAt_append (by omega) h1).2 ho⟩

theorem Built.snoc {cs l l' : List ChangeForecasted} {c : ChangeForecasted} (hb : Built cs l)
    (ha : Adds c l l') (hc : c.indicator.valid.from_.time.valid = true) : Built (cs ++ [c]) l' := by
  obtain ⟨hlen, hb⟩ := hb
  obtain ⟨l1, rfl, h1, h2⟩ := ha
  rw [ending_iff] at h1 h2
  have hstep : l1.length = l.length ∧ ∀ k x, l[k]? = some x →
      (Spec.Ending c ∧ Spec.OpenAt l k l.length →
        ∃ t, Spec.After c.indicator.valid.from_.time (-60) t ∧
          l1[k]? = some { x with indicator := Spec.until_ x.indicator t }) ∧
      (¬ (Spec.Ending c ∧ Spec.OpenAt l k l.length) → l1[k]? = some x) := by
    by_cases he : Spec.Ending c
    · obtain ⟨e1, e2⟩ := closes_at (h1 he) hc
      exact ⟨e1, fun k x hk => ⟨fun ho => (e2 k x hk).1 ho.2,
        fun ho => (e2 k x hk).2 fun h => ho ⟨he, h⟩⟩⟩
    · rw [h2 he]
      exact ⟨rfl, fun k x hk => ⟨fun ho => absurd ho.1 he, fun _ => hk⟩⟩
  obtain ⟨e1, e2⟩ := hstep
  have hopen := openAt_same hlen fun k x0 hk => (hb k x0 hk).imp fun x hx => ⟨hx.1, hx.2.1⟩
  refine ⟨by simp [e1, hlen], fun k x0 hk => ?_⟩
  by_cases hlt : k < cs.length
  · rw [List.getElem?_append_left hlt] at hk
    obtain ⟨x, hx, hs, hn, hcl⟩ := hb k x0 hk
    rw [List.getElem?_append_left (by omega)]
    by_cases ho : Spec.Ending c ∧ Spec.OpenAt l k l.length
    · obtain ⟨t, ht, hx'⟩ := (e2 k x hx).1 ho
      have hclosed : Spec.ClosedBy (cs ++ [c]) k cs.length :=
        closedBy_append.2 (.inr ⟨rfl, hlt, ho.1, hlen ▸ (hopen _ _).1 ho.2⟩)
      refine ⟨_, hx', ⟨hs.1, hs.2.1, hs.2.2.1, hs.2.2.2.1, hs.2.2.2.2.1, hs.2.2.2.2.2⟩,
        fun hnone => absurd hclosed (hnone _), fun j y hy hj hlast => ?_⟩
      have hje : j = cs.length := by
        rcases closedBy_append.1 hj with h | h
        · obtain ⟨-, ⟨y', hy', -⟩, -⟩ := h
          have := (List.getElem?_eq_some_iff.1 hy').1
          exact absurd hclosed (hlast _ this)
        · exact h.1
      subst hje
      simp at hy
      subst hy
      refine ⟨t, ht, ?_⟩
      simp only [Spec.until_, hs.2.2.2.2.1, hs.2.2.2.2.2]
    · have hx' := (e2 k x hx).2 ho
      have hno : ∀ j, Spec.ClosedBy (cs ++ [c]) k j ↔ Spec.ClosedBy cs k j := by
        intro j
        rw [closedBy_append]
        refine ⟨fun h => h.elim id ?_, .inl⟩
        rintro ⟨rfl, -, h3, h4⟩
        rw [hlen, hopen] at ho
        exact absurd ⟨h3, h4⟩ ho
      refine ⟨x, hx', hs, fun hnone => hn fun j hh => hnone j ((hno j).2 hh),
        fun j y hy hj hlast => ?_⟩
      have hj' := (hno j).1 hj
      obtain ⟨-, ⟨y', hy', -⟩, -⟩ := hj'
      have hjl := (List.getElem?_eq_some_iff.1 hy').1
      rw [List.getElem?_append_left hjl] at hy
      exact hcl j y hy ((hno j).1 hj) fun j' hj' hh => hlast j' hj' ((hno j').2 hh)
  · have hlt' := (List.getElem?_eq_some_iff.1 hk).1
    simp only [List.length_append, List.length_singleton] at hlt'
    have : k = cs.length := by omega
    subst this
    simp at hk
    subst hk
    refine ⟨c.str.2, by rw [← hlen, ← e1]; simp, ⟨rfl, rfl, rfl, rfl, rfl, rfl⟩, fun _ => rfl, ?_⟩
    intro j y hy hj
    have := (List.getElem?_eq_some_iff.1 hy).1
    simp only [List.length_append, List.length_singleton] at this
    exact absurd hj.1 (by omega)

theorem Built.chain {cs cs' l l' : List ChangeForecasted} (h : Spec.Chain Adds cs' l l')
    (hb : Built cs l) (hv : ∀ x ∈ cs', x.indicator.valid.from_.time.valid = true) :
    Built (cs ++ cs') l' := by
  induction h generalizing cs with
  | nil => simpa using hb
  | @cons c cs' l l1 l2 h1 _ ih =>
    have := ih (hb.snoc h1 (hv c (by simp))) fun x hx => hv x (by simp [hx])
    simpa using this

/-- C46, whole report. The changes of a TAF are those constructed from its change texts, in order.
The period of a change ends where its own text says, unless it is an FM change and a later FM or
BECMG change closes it (only PROB and TEMPO changes being between the two): then it ends one hour
before that change starts. -/
theorem C46_report (db : Database) (clock : Clock) (code : PyStr) (a : Args) (r : Taf)
    (h : Taf.new db clock code a = .ok r) :
    ∃ cs, Spec.Each (fun t c => ChangeForecasted.new t r.valid = .ok c)
        (r.changesCodes.filter (· ≠ [])) cs ∧
      Built cs r.changes.list := by
  obtain ⟨hv1, hv2⟩ := (Taf.time_valid h).2
  obtain ⟨_, _, _, _, -, -, -, -, -, -, -, ⟨cs0, e1, e2, -⟩, -, -, -, -, -, e3⟩ := Taf.new_reading h
  refine ⟨cs0, by rw [e3]; exact e1, ?_⟩
  have := Built.chain (cs := []) e2 ⟨rfl, by simp⟩ fun x hx => by
    obtain ⟨t, -, hn⟩ := e1.right x hx
    exact (ChangeForecasted.new_valid ⟨hv1, hv2⟩ hn).1.1
  simpa using this

/-! ### Instances -/

/-- The first FM change is closed by the second although a TEMPO stands between them, the second by
BECMG; BECMG and TEMPO keep their own periods. -/
example : (tafOk sampleClock
      py!"TAF KJFK 101130Z 1012/1112 18004KT FM101500 20010KT TEMPO 1016/1018 3000 FM101900 24010KT BECMG 1102/1104 27005KT").map
      (fun r => r.changes.list.map fun c =>
        (c.code, c.indicator.valid.from_.time, c.indicator.valid.until_.time)) =
    some [(py!"FM101500 20010KT", ⟨2024, 6, 10, 15, 0⟩, ⟨2024, 6, 10, 18, 0⟩),
      (py!"TEMPO 1016/1018 3000", ⟨2024, 6, 10, 16, 0⟩, ⟨2024, 6, 10, 18, 0⟩),
      (py!"FM101900 24010KT", ⟨2024, 6, 10, 19, 0⟩, ⟨2024, 6, 11, 1, 0⟩),
      (py!"BECMG 1102/1104 27005KT", ⟨2024, 6, 11, 2, 0⟩, ⟨2024, 6, 11, 4, 0⟩)] := by
  decide +kernel

/-- The changes of that report before they are added, for `C46_add` and `C46_succeeds`. -/
def sampleChange (text : PyStr) : Option ChangeForecasted :=
  match ChangeForecasted.new text
    ⟨some py!"1012/1112", ⟨none, ⟨2024, 6, 10, 12, 0⟩⟩, ⟨none, ⟨2024, 6, 11, 12, 0⟩⟩⟩ with
  | .ok c => some c
  | .error _ => none

example : ((sampleChange py!"FM101500 20010KT").bind fun x => (sampleChange py!"TEMPO 1016/1018 3000").bind
      fun y => (sampleChange py!"BECMG 1019/1021 27005KT").map fun z =>
        (addChange { max := 8, list := [x, y] } z).toOption.map fun g => g.list.map fun c =>
          (c.indicator.code, c.indicator.valid.until_.time)) =
    some (some [(some py!"FM101500", ⟨2024, 6, 10, 18, 0⟩),
      (some py!"TEMPO 1016/1018", ⟨2024, 6, 10, 18, 0⟩),
      (some py!"BECMG 1019/1021", ⟨2024, 6, 10, 21, 0⟩)]) := by decide +kernel

end Verif.Props
