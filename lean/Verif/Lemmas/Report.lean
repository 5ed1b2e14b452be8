import Verif.Lemmas.MetarAttr
import Verif.Lemmas.TafAttr
import Verif.Lemmas.PeriodAttr

/-
The finished reports: body, trends and changes put together.
-/

namespace Verif

theorem Spec.Each.append {α β : Type} {R : α → β → Prop} {as as' : List α} {bs bs' : List β}
    (h : Spec.Each R as bs) (h' : Spec.Each R as' bs') : Spec.Each R (as ++ as') (bs ++ bs') := by
  induction h with
  | nil => exact h'
  | cons h1 _ ih => exact .cons h1 ih

theorem Spec.Each.length {α β : Type} {R : α → β → Prop} {as : List α} {bs : List β}
    (h : Spec.Each R as bs) : as.length = bs.length := by
  induction h with
  | nil => rfl
  | cons _ _ ih => simp [ih]

theorem Spec.Each.imp {α β : Type} {R S : α → β → Prop} {as : List α} {bs : List β}
    (h : Spec.Each R as bs) (hi : ∀ a b, a ∈ as → b ∈ bs → R a b → S a b) : Spec.Each S as bs := by
  induction h with
  | nil => exact .nil
  | cons h1 _ ih =>
    exact .cons (hi _ _ (by simp) (by simp) h1)
      (ih fun a b ha hb => hi a b (by simp [ha]) (by simp [hb]))

theorem Spec.Each.right {α β : Type} {R : α → β → Prop} {as : List α} {bs : List β}
    (h : Spec.Each R as bs) : ∀ b ∈ bs, ∃ a ∈ as, R a b := by
  induction h with
  | nil => simp
  | @cons a b as bs h1 _ ih =>
    intro b' hb
    rcases List.mem_cons.1 hb with rfl | hb
    · exact ⟨a, by simp, h1⟩
    · obtain ⟨a', ha, hr⟩ := ih b' hb
      exact ⟨a', by simp [ha], hr⟩

/-! ### METAR -/

/-- The loop over the trend parts adds one period for each non-empty part. -/
theorem Metar.trendsGo_ok {ts : List PyStr} {r r' : Metar} (h : Metar.trendsGo ts r = .ok r') :
    ∃ ps, Spec.Each (fun t p => ChangePeriod.new t r.time.time = .ok p) (ts.filter (· ≠ [])) ps ∧
      r' = { r with
        weatherTrends := { r.weatherTrends with list := r.weatherTrends.list ++ ps },
        core := { r.core with
          string := r.core.string ++ ps.flatMap fun p => p.str ++ py!"\n" } } := by
  induction ts generalizing r with
  | nil =>
    simp only [Metar.trendsGo, Except.ok.injEq] at h
    subst h
    exact ⟨[], .nil, by simp⟩
  | cons t ts ih =>
    unfold Metar.trendsGo at h
    by_cases ht : t = []
    · rw [if_neg (by simpa using ht)] at h
      obtain ⟨ps, h1, h2⟩ := ih h
      exact ⟨ps, by simpa [ht] using h1, h2⟩
    · rw [if_pos ht] at h
      simp only [bind_ok, Metar.handleWeatherTrend, pure_ok] at h
      obtain ⟨r1, ⟨p, h1, l, h2, rfl⟩, h3⟩ := h
      have h2 := GroupList.add_ok h2
      subst h2
      obtain ⟨ps, h4, h5⟩ := ih h3
      refine ⟨p :: ps, ?_, ?_⟩
      · simp only [List.filter_cons, ht, ne_eq, not_false_eq_true, decide_true, if_true]
        exact .cons h1 h4
      · rw [h5]
        simp [Metar.concat, Core.concat]

theorem GroupList.iterGo_all {α : Type} (g : GroupList α) (f : Nat) (hle : g.n ≤ g.list.length)
    (h : g.list.length < g.n + f) :
    GroupList.iterGo f g = (g.list.drop g.n, { g with n := 0 }) := by
  induction f generalizing g with
  | zero =>
    simp only [GroupList.iterGo]
    omega
  | succ f ih =>
    unfold GroupList.iterGo GroupList.next
    by_cases hn : g.n ≥ g.list.length
    · simp [if_pos hn, List.drop_eq_nil_of_le hn]
    · rw [if_neg hn]
      have hlt : g.n < g.list.length := by omega
      simp only [List.getElem?_eq_getElem hlt]
      rw [ih _ (by simp only; omega) (by simp only; omega)]
      simp only [Prod.mk.injEq, and_true]
      rw [← List.getElem_cons_drop hlt]

theorem GroupList.iter_reset {α : Type} (g : GroupList α) (h : g.n = 0) : g.iter = (g.list, g) := by
  unfold GroupList.iter
  cases g
  simp only at h
  subst h
  rw [GroupList.iterGo_all _ _ (by simp) (by simp)]
  rfl

theorem parseSection_reading {σ : Type} {hs : List (Handler σ)} {text : PyStr} {s s' : σ}
    {un : List PyStr} (h : parseSection hs text s = .ok (s', un)) :
    ∃ asg : List (Option Nat), asg.length = (splitC 32 text).length ∧
      Spec.FirstApplicable hs (splitC 32 text) asg ∧
      Spec.Runs hs (Spec.consumed (splitC 32 text) asg) s (.ok s') ∧
      Ordered (Spec.consumed (splitC 32 text) asg) ∧
      un = Spec.leftover (splitC 32 text) asg := by
  obtain ⟨h1, h2⟩ := parseSection_ok h
  exact ⟨_, assign_length hs 0 _, assign_firstApplicable hs _, h1, consumed_ordered, h2⟩

/-- Everything about a METAR that was constructed without exception. -/
theorem Metar.new_reading {db : Database} {clock : Clock} {code : PyStr} {a : Args} {r : Metar}
    (h : Metar.new db clock code a = .ok r) :
    ∃ t0 time asg r1, Time.new (clock 0) none none none none none none = .ok t0 ∧
      Time.fromMetar (clock 1) none a.year a.month = .ok time ∧
      asg.length = (splitC 32 (Metar.bodyText (normalizeCode code))).length ∧
      Spec.FirstApplicable (Metar.handlers db (clock 2) a)
        (splitC 32 (Metar.bodyText (normalizeCode code))) asg ∧
      Spec.Runs (Metar.handlers db (clock 2) a)
        (Spec.consumed (splitC 32 (Metar.bodyText (normalizeCode code))) asg)
        (Metar.start (normalizeCode code) time) (.ok r1) ∧
      Ordered (Spec.consumed (splitC 32 (Metar.bodyText (normalizeCode code))) asg) ∧
      Metar.Reading db (clock 2) a
        (Spec.consumed (splitC 32 (Metar.bodyText (normalizeCode code))) asg)
        (Metar.start (normalizeCode code) time) r ∧
      Spec.Each (fun t p => ChangePeriod.new t r.time.time = .ok p)
        ((Metar.trendParts (normalizeCode code)).filter (· ≠ [])) r.weatherTrends.list ∧
      r.weatherTrends.n = 0 ∧
      r.unparsed = Spec.leftover (splitC 32 (Metar.bodyText (normalizeCode code))) asg ++
        r.weatherTrends.list.flatMap ChangePeriod.unparsed ∧
      r.rawCode = normalizeCode code ∧
      r.sections = (Metar.start (normalizeCode code) time).sections ∧
      r.core.string = r1.core.string ++
        r.weatherTrends.list.flatMap (fun p => p.str ++ py!"\n") := by
  obtain ⟨t0, time, r1, un, r2, -, h0, h1, h2, hf, h3, rfl, -⟩ := Metar.new_ok h
  obtain ⟨asg, e1, e2, e3, e4, e5⟩ := parseSection_reading h2
  have hR := Metar.reading e3 e4 ⟨rfl, rfl⟩ ⟨rfl, rfl⟩ ⟨rfl, rfl⟩ ⟨rfl, rfl⟩
  obtain ⟨ps, h4, h5⟩ := Metar.trendsGo_ok h3
  have ht : r1.weatherTrends = GroupList.new 2 := hf.trends
  have hw : r2.weatherTrends = { (GroupList.new 2 : GroupList ChangePeriod) with list := ps } := by
    rw [h5]
    simp only [ht]
    rfl
  have hi := GroupList.iter_reset r2.weatherTrends (by rw [hw]; rfl)
  have hfin : r2.finish = { r2 with unparsed := un ++ ps.flatMap ChangePeriod.unparsed } := by
    unfold Metar.finish
    rw [hi, hw, h5, ht]
  rw [hfin]
  have hl : r2.weatherTrends.list = ps := by rw [hw]
  refine ⟨t0, time, asg, r1, h0, h1, e1, e2, e3, e4, ?_, ?_, ?_, ?_, ?_, ?_, ?_⟩
  · rw [h5]
    exact ⟨hR.1, hR.2, hR.3, hR.4, hR.5, hR.6, hR.7, hR.8, hR.9, hR.10, hR.11, hR.12, hR.13, hR.14,
      hR.15, hR.16, hR.17⟩
  · simp only [hl]
    rw [h5]
    exact h4
  · simp only [hw]
    rfl
  · simp only [hl, e5]
  · rw [h5]
    exact hf.rawCode
  · rw [h5]
    exact hf.sections
  · simp only [hl]
    rw [h5]

/-! ### TAF -/

/-- The code of the indicator does not begin with `FM`. -/
def TafIndicator.NotFm (i : TafIndicator) : Prop := ∀ s, i.code = some s → startsWith s py!"FM" = false

/-- The same change up to the end of the period of an FM indicator and the text buffer. -/
def SameData (c c' : ChangeForecasted) : Prop :=
  ∃ i s, c' = { c with indicator := i, core := { c.core with string := s } } ∧
    i.code = c.indicator.code ∧ i.valid.from_ = c.indicator.valid.from_ ∧
    (c.indicator.NotFm → i = c.indicator)

theorem SameData.refl (c : ChangeForecasted) : SameData c c :=
  ⟨c.indicator, c.core.string, rfl, rfl, rfl, fun _ => rfl⟩

theorem SameData.trans {a b c : ChangeForecasted} (h : SameData a b) (h' : SameData b c) :
    SameData a c := by
  obtain ⟨i, s, rfl, h1, h2, h5⟩ := h
  obtain ⟨i', s', rfl, h3, h4, h6⟩ := h'
  refine ⟨i', s', rfl, h3.trans h1, h4.trans h2, fun hn => ?_⟩
  rw [h6 fun s hs => hn s (h1 ▸ hs)]
  exact h5 hn

theorem TafIndicator.resetUntil_ok {i i' : TafIndicator} {u : Time} (h : i.resetUntil u = .ok i') :
    i'.code = i.code ∧ i'.valid.from_ = i.valid.from_ ∧
    ∃ t, u.time.addHours (-1) = .ok t ∧ ∃ c, i.code = some c ∧
      (startsWith c py!"FM" = true → i' = { i with
        valid := ⟨none, i.valid.from_, Time.ofDT t⟩,
        translation := some (Valid.str ⟨none, i.valid.from_, Time.ofDT t⟩) }) ∧
      (startsWith c py!"FM" ≠ true → i' = i) := by
  unfold TafIndicator.resetUntil at h
  simp only [bind_ok] at h
  obtain ⟨t, h1, h⟩ := h
  cases hc : i.code with
  | none => simp [hc, throw_eq] at h
  | some c =>
    simp only [hc] at h
    split at h
    · next hf =>
      simp only [pure_ok] at h
      subst h
      exact ⟨by simp, rfl, t, h1, c, rfl, fun _ => rfl, fun hn => absurd hf hn⟩
    · next hf =>
      simp only [pure_ok] at h
      subst h
      exact ⟨hc, rfl, t, h1, c, rfl, fun hn => absurd hn hf, fun _ => rfl⟩

/-- The change is one of those that do not end the previous period. -/
def ChangeForecasted.starts (c : ChangeForecasted) (p : PyStr) : Prop :=
  ∃ t, c.indicator.code = some t ∧ startsWith t p = true

/-- The effect of closing the period before a new one that starts at `u`. -/
def Closes (u : Time) (l l' : List ChangeForecasted) : Prop :=
  ((∀ x ∈ l, x.starts py!"PROB" ∨ x.starts py!"TEMPO") ∧ l' = l) ∨
  ∃ pre x x' post, l = pre ++ x :: post ∧ l' = pre ++ x' :: post ∧
    (∀ y ∈ post, y.starts py!"PROB" ∨ y.starts py!"TEMPO") ∧
    ¬ x.starts py!"PROB" ∧ ¬ x.starts py!"TEMPO" ∧ x.indicator.code ≠ none ∧
    ((x.starts py!"FM" ∧ ∃ i, x.indicator.resetUntil u = .ok i ∧ x' = { x with indicator := i }) ∨
     (¬ x.starts py!"FM" ∧ x' = x))

theorem addChangeGo_ok {u : Time} {rest rest' : List ChangeForecasted} {last : ChangeForecasted}
    {temp temp' : List ChangeForecasted}
    (h : addChangeGo u rest last temp = .ok (rest', temp')) :
    ∃ l', rest'.reverse ++ temp'.reverse = l' ++ temp.reverse ∧
      Closes u (rest.reverse ++ [last]) l' := by
  induction rest generalizing last temp with
  | nil =>
    unfold addChangeGo at h
    cases hc : last.indicator.code with
    | none => simp [hc] at h
    | some c =>
      simp only [hc] at h
      have hst : ∀ p, last.starts p ↔ startsWith c p = true := by
        intro p; simp [ChangeForecasted.starts, hc]
      split at h
      · next hp =>
        simp only [Except.ok.injEq, Prod.mk.injEq] at h
        obtain ⟨rfl, rfl⟩ := h
        refine ⟨[last], by simp, .inl ⟨?_, rfl⟩⟩
        simpa [hst] using hp
      · next hp =>
        simp only [not_or] at hp
        split at h
        · next hfm =>
          cases hr : last.indicator.resetUntil u with
          | error e => simp [hr] at h
          | ok i =>
            simp only [hr, Except.ok.injEq, Prod.mk.injEq] at h
            obtain ⟨rfl, rfl⟩ := h
            refine ⟨[{ last with indicator := i }], by simp, .inr ⟨[], last, _, [], rfl, rfl, by simp,
              ?_, ?_, by simp [hc], .inl ⟨(hst _).2 hfm, i, hr, rfl⟩⟩⟩
            · rw [hst]; exact hp.1
            · rw [hst]; exact hp.2
        · next hfm =>
          simp only [Except.ok.injEq, Prod.mk.injEq] at h
          obtain ⟨rfl, rfl⟩ := h
          refine ⟨[last], by simp, .inr ⟨[], last, _, [], rfl, rfl, by simp,
              ?_, ?_, by simp [hc], .inr ⟨fun hh => hfm ((hst _).1 hh), rfl⟩⟩⟩
          · rw [hst]; exact hp.1
          · rw [hst]; exact hp.2
  | cons l rest ih =>
    unfold addChangeGo at h
    cases hc : last.indicator.code with
    | none => simp [hc] at h
    | some c =>
      simp only [hc] at h
      have hst : ∀ p, last.starts p ↔ startsWith c p = true := by
        intro p; simp [ChangeForecasted.starts, hc]
      split at h
      · next hp =>
        obtain ⟨l', h1, h2⟩ := ih h
        have hlast : last.starts py!"PROB" ∨ last.starts py!"TEMPO" := by simpa [hst] using hp
        refine ⟨l' ++ [last], by simpa using h1, ?_⟩
        rcases h2 with ⟨h2, rfl⟩ | ⟨pre, x, x', post, h3, rfl, h5, h6, h7, h8, h9⟩
        · left
          refine ⟨?_, by simp⟩
          intro x hx
          rcases List.mem_append.1 hx with hx | hx
          · exact h2 x (by simpa using hx)
          · rw [List.mem_singleton.1 hx]; exact hlast
        · right
          refine ⟨pre, x, x', post ++ [last], ?_, by simp, ?_, h6, h7, h8, h9⟩
          · rw [List.reverse_cons, h3]; simp
          · intro y hy
            rcases List.mem_append.1 hy with hy | hy
            · exact h5 y hy
            · rw [List.mem_singleton.1 hy]; exact hlast
      · next hp =>
        simp only [not_or] at hp
        split at h
        · next hfm =>
          cases hr : last.indicator.resetUntil u with
          | error e => simp [hr] at h
          | ok i =>
            simp only [hr, Except.ok.injEq, Prod.mk.injEq] at h
            obtain ⟨rfl, rfl⟩ := h
            refine ⟨(l :: rest).reverse ++ [{ last with indicator := i }], by simp,
              .inr ⟨(l :: rest).reverse, last, _, [], rfl, rfl, by simp,
              ?_, ?_, by simp [hc], .inl ⟨(hst _).2 hfm, i, hr, rfl⟩⟩⟩
            · rw [hst]; exact hp.1
            · rw [hst]; exact hp.2
        · next hfm =>
          simp only [Except.ok.injEq, Prod.mk.injEq] at h
          obtain ⟨rfl, rfl⟩ := h
          refine ⟨(l :: rest).reverse ++ [last], by simp,
            .inr ⟨(l :: rest).reverse, last, _, [], rfl, rfl, by simp,
              ?_, ?_, by simp [hc], .inr ⟨fun hh => hfm ((hst _).1 hh), rfl⟩⟩⟩
          · rw [hst]; exact hp.1
          · rw [hst]; exact hp.2

theorem addAll_ok {α : Type} {g g' : GroupList α} {l : List α} (h : addAll g l = .ok g') :
    g' = { g with list := g.list ++ l } := by
  induction l generalizing g with
  | nil => simp only [addAll, Except.ok.injEq] at h; simp [← h]
  | cons a l ih =>
    unfold addAll at h
    cases ha : g.add a with
    | error e => simp [ha] at h
    | ok g1 =>
      simp only [ha] at h
      rw [ih h, GroupList.add_ok ha]
      simp

/-- What adding a change does to the list. -/
theorem addChange_ok {g g' : GroupList ChangeForecasted} {new : ChangeForecasted}
    (h : addChange g new = .ok g') :
    ∃ l', g' = { g with list := l' ++ [new] } ∧
      ((startsWith new.code py!"FM" = true ∨ startsWith new.code py!"BECMG" = true) →
        Closes new.indicator.valid.from_ g.list l') ∧
      (¬ (startsWith new.code py!"FM" = true ∨ startsWith new.code py!"BECMG" = true) →
        l' = g.list) := by
  unfold addChange at h
  split at h
  · next hl =>
    have hl : g.list = [] := by simpa using hl
    refine ⟨[], by rw [GroupList.add_ok h, hl], fun _ => ?_, fun _ => hl.symm⟩
    rw [hl]
    exact .inl ⟨by simp, rfl⟩
  · next last rest hl =>
    have hl' : g.list = rest.reverse ++ [last] := by
      have := congrArg List.reverse hl
      simpa using this
    split at h
    · next hs =>
      cases hg : addChangeGo new.indicator.valid.from_ rest last [] with
      | error e => simp [hg] at h
      | ok x =>
        obtain ⟨rest', temp'⟩ := x
        simp only [hg] at h
        obtain ⟨l', h1, h2⟩ := addChangeGo_ok hg
        cases ha : addAll { g with list := rest'.reverse } temp'.reverse with
        | error e => simp [ha] at h
        | ok g1 =>
          simp only [ha] at h
          refine ⟨l', ?_, fun _ => by rw [hl']; exact h2, fun hn => absurd hs hn⟩
          rw [GroupList.add_ok h, addAll_ok ha]
          simp only [List.reverse_nil, List.append_nil] at h1
          simp only [h1]
    · next hs => exact ⟨g.list, GroupList.add_ok h, fun hh => absurd hh hs, fun _ => rfl⟩

theorem Spec.Each.refl {α : Type} {R : α → α → Prop} (hR : ∀ a, R a a) (l : List α) :
    Spec.Each R l l := by
  induction l with
  | nil => exact .nil
  | cons a l ih => exact .cons (hR a) ih

theorem Closes.same {u : Time} {l l' : List ChangeForecasted} (h : Closes u l l') :
    Spec.Each SameData l l' := by
  rcases h with ⟨-, rfl⟩ | ⟨pre, x, x', post, rfl, rfl, -, -, -, -, h⟩
  · exact .refl SameData.refl _
  · refine (Spec.Each.refl SameData.refl pre).append (.cons ?_ (.refl SameData.refl post))
    rcases h with ⟨hf, i, hi, rfl⟩ | ⟨-, rfl⟩
    · refine ⟨i, x.core.string, rfl, (TafIndicator.resetUntil_ok hi).1, (TafIndicator.resetUntil_ok hi).2.1,
        fun hn => ?_⟩
      obtain ⟨s, hs, hb⟩ := hf
      exact absurd hb (by rw [hn s hs]; simp)
    · exact SameData.refl _

theorem Spec.Each.comp {α β γ : Type} {R : α → β → Prop} {S : β → γ → Prop} {T : α → γ → Prop}
    (hT : ∀ a b c, R a b → S b c → T a c) {as : List α} {bs : List β} {cs : List γ}
    (h : Spec.Each R as bs) (h' : Spec.Each S bs cs) : Spec.Each T as cs := by
  induction h generalizing cs with
  | nil => cases h'; exact .nil
  | cons h1 _ ih =>
    cases h' with
    | cons h2 h3 => exact .cons (hT _ _ _ h1 h2) (ih h3)

/-- Adding the change `c` to the list `l` gives `l'`. -/
def Adds (c : ChangeForecasted) (l l' : List ChangeForecasted) : Prop :=
  ∃ l1, l' = l1 ++ [c.str.2] ∧
    ((startsWith c.code py!"FM" = true ∨ startsWith c.code py!"BECMG" = true) →
      Closes c.indicator.valid.from_ l l1) ∧
    (¬ (startsWith c.code py!"FM" = true ∨ startsWith c.code py!"BECMG" = true) → l1 = l)

theorem Adds.same {c : ChangeForecasted} {l l' : List ChangeForecasted} (h : Adds c l l') :
    Spec.Each SameData (l ++ [c]) l' := by
  obtain ⟨l1, rfl, h1, h2⟩ := h
  have hsame : Spec.Each SameData l l1 := by
    by_cases hs : startsWith c.code py!"FM" = true ∨ startsWith c.code py!"BECMG" = true
    · exact (h1 hs).same
    · rw [h2 hs]; exact .refl SameData.refl _
  exact hsame.append (.cons ⟨c.indicator, _, rfl, rfl, rfl, fun _ => rfl⟩ .nil)

theorem Adds.chain_same {cs l0 l l' : List ChangeForecasted} (h : Spec.Chain Adds cs l l')
    (h0 : Spec.Each SameData l0 l) : Spec.Each SameData (l0 ++ cs) l' := by
  induction h generalizing l0 with
  | nil => simpa using h0
  | @cons c cs l l1 l2 h1 _ ih =>
    have h2 := (h0.append (.cons (SameData.refl c) .nil)).comp (S := SameData) (T := SameData)
      (fun a b c h h' => SameData.trans h h') h1.same
    simpa using ih h2

/-- The loop over the change codes. -/
theorem Taf.changesGo_ok {cs : List PyStr} {r r' : Taf} (h : Taf.changesGo cs r = .ok r') :
    ∃ cs0 l, Spec.Each (fun t c => ChangeForecasted.new t r.valid = .ok c) (cs.filter (· ≠ [])) cs0 ∧
      Spec.Chain Adds cs0 r.changes.list l ∧
      r' = { r with changes := { r.changes with list := l },
                    core := { r.core with
                      string := r.core.string ++ cs0.flatMap fun c => c.str.1 ++ py!"\n" } } := by
  induction cs generalizing r with
  | nil =>
    simp only [Taf.changesGo, Except.ok.injEq] at h
    subst h
    exact ⟨[], _, .nil, .nil _, by simp⟩
  | cons t ts ih =>
    unfold Taf.changesGo at h
    by_cases ht : t = []
    · rw [if_neg (by simpa using ht)] at h
      simpa [ht] using ih h
    · rw [if_pos ht] at h
      simp only [bind_ok, Taf.handleChange, pure_ok] at h
      obtain ⟨r1, ⟨p, h1, l, h2, rfl⟩, h3⟩ := h
      obtain ⟨l', rfl, e1, e2⟩ := addChange_ok h2
      obtain ⟨cs0, l2, h4, h5, h6⟩ := ih h3
      refine ⟨p :: cs0, l2, ?_, .cons ⟨l', rfl, e1, e2⟩ ?_, ?_⟩
      · simp only [List.filter_cons, ht, ne_eq, not_false_eq_true, decide_true, if_true]
        exact .cons h1 h4
      · simpa [Taf.concat] using h5
      · rw [h6]
        simp [Taf.concat, Core.concat]

/-- Everything about a TAF that was constructed without exception. -/
theorem Taf.new_reading {db : Database} {clock : Clock} {code : PyStr} {a : Args} {r : Taf}
    (h : Taf.new db clock code a = .ok r) :
    ∃ time v asg r1, Time.new (clock 0) none none none none none none = .ok time ∧
      Valid.fromTaf none time.time = .ok v ∧
      asg.length = (splitC 32 (Taf.bodyText (normalizeCode code))).length ∧
      Spec.FirstApplicable (Taf.handlers db (clock 1) a)
        (splitC 32 (Taf.bodyText (normalizeCode code))) asg ∧
      Spec.Runs (Taf.handlers db (clock 1) a)
        (Spec.consumed (splitC 32 (Taf.bodyText (normalizeCode code))) asg)
        (Taf.start (normalizeCode code) time v) (.ok r1) ∧
      Ordered (Spec.consumed (splitC 32 (Taf.bodyText (normalizeCode code))) asg) ∧
      Taf.Reading db (clock 1) a
        (Spec.consumed (splitC 32 (Taf.bodyText (normalizeCode code))) asg)
        (Taf.start (normalizeCode code) time v) r ∧
      (∃ cs0, Spec.Each (fun t c => ChangeForecasted.new t r.valid = .ok c)
          ((tafSections (normalizeCode code)).2.filter (· ≠ [])) cs0 ∧
        Spec.Chain Adds cs0 [] r.changes.list ∧
        r.core.string = r1.core.string ++ cs0.flatMap fun c => c.str.1 ++ py!"\n") ∧
      Spec.Each (fun t c => ∃ c0, ChangeForecasted.new t r.valid = .ok c0 ∧ SameData c0 c)
        ((tafSections (normalizeCode code)).2.filter (· ≠ [])) r.changes.list ∧
      r.changes.n = 0 ∧
      r.unparsed = Spec.leftover (splitC 32 (Taf.bodyText (normalizeCode code))) asg ++
        r.changes.list.flatMap ChangeForecasted.unparsed ∧
      r.rawCode = normalizeCode code ∧
      r.body = (tafSections (normalizeCode code)).1 ∧
      r.changesCodes = (tafSections (normalizeCode code)).2 := by
  obtain ⟨time, v, r1, un, r2, -, h0, h1, h2, hf, h3, rfl, -⟩ := Taf.new_ok h
  obtain ⟨asg, e1, e2, e3, e4, e5⟩ := parseSection_reading h2
  have hR := Taf.reading e3 e4 ⟨rfl, rfl⟩ ⟨rfl, rfl⟩ rfl rfl
  have ht : r1.changes = GroupList.new 8 := hf.changes
  obtain ⟨cs0, l, h4, h4', h5⟩ := Taf.changesGo_ok h3
  have hw : r2.changes = { (GroupList.new 8 : GroupList ChangeForecasted) with list := l } := by
    rw [h5]
    simp only [ht]
  have hi := GroupList.iter_reset r2.changes (by rw [hw]; rfl)
  have hfin : r2.finish = { r2 with unparsed := un ++ l.flatMap ChangeForecasted.unparsed } := by
    unfold Taf.finish
    rw [hi, hw, h5]
  rw [hfin]
  have hl : r2.changes.list = l := by rw [hw]
  refine ⟨time, v, asg, r1, h0, h1, e1, e2, e3, e4, ?_, ?_, ?_, ?_, ?_, ?_, ?_, ?_⟩
  · rw [h5]
    exact ⟨hR.1, hR.2, hR.3, hR.4, hR.5, hR.6, hR.7, hR.8, hR.9, hR.10, hR.11, hR.12⟩
  · refine ⟨cs0, ?_, ?_, ?_⟩
    · rw [h5]; exact h4
    · rw [ht] at h4'
      simp only [hl]; exact h4'
    · rw [h5]
  · have hs := Adds.chain_same (l0 := []) h4' (by rw [ht]; exact .nil)
    simp only [hl]
    rw [h5]
    exact h4.comp (fun a b c h1 h2 => ⟨b, h1, h2⟩) hs
  · simp only [hw]
    rfl
  · simp only [hl, e5]
  · rw [h5]
    exact hf.rawCode
  · rw [h5]
    exact hf.body
  · rw [h5]
    exact hf.changesCodes

/-! ### Trends and changes -/

/-- A METAR trend before its groups are parsed. -/
def ChangePeriod.start (code : PyStr) (time : DT) (ind : TrendIndicator) : ChangePeriod :=
  { code := some (replace code py!"_" py!" "), time := time, indicator := ind }

/-- Everything about a METAR trend that was constructed without exception. -/
theorem ChangePeriod.new_reading {code : PyStr} {time : DT} {p : ChangePeriod}
    (h : ChangePeriod.new code time = .ok p) :
    ∃ ind asg p1, TrendIndicator.new none time = .ok ind ∧
      asg.length = (splitC 32 (sanitizeVisibility (replace code py!"_" py!" "))).length ∧
      Spec.FirstApplicable ChangePeriod.handlers
        (splitC 32 (sanitizeVisibility (replace code py!"_" py!" "))) asg ∧
      Spec.Runs ChangePeriod.handlers
        (Spec.consumed (splitC 32 (sanitizeVisibility (replace code py!"_" py!" "))) asg)
        (ChangePeriod.start code time ind) (.ok p1) ∧
      Ordered (Spec.consumed (splitC 32 (sanitizeVisibility (replace code py!"_" py!" "))) asg) ∧
      ChangePeriod.Reading
        (Spec.consumed (splitC 32 (sanitizeVisibility (replace code py!"_" py!" "))) asg)
        (ChangePeriod.start code time ind) p ∧
      p = { p1 with unparsed :=
        Spec.leftover (splitC 32 (sanitizeVisibility (replace code py!"_" py!" "))) asg } ∧
      p.code = some (replace code py!"_" py!" ") ∧ p.time = time := by
  unfold ChangePeriod.new at h
  simp only [bind_ok, pure_ok] at h
  obtain ⟨ind, h1, ⟨p1, un⟩, h2, rfl⟩ := h
  obtain ⟨asg, e1, e2, e3, e4, e5⟩ := parseSection_reading h2
  have hR := ChangePeriod.reading e3 e4 ⟨rfl, rfl⟩ ⟨rfl, rfl⟩
  have hun : p1.unparsed = [] :=
    e3.keep (get := fun p => p.unparsed) fun x _ h hh m s s' hs => (ChangePeriod.effect hh hs).unparsed
  have hcode : p1.code = _ :=
    e3.keep (get := fun p => p.code) fun x _ h hh m s s' hs => (ChangePeriod.effect hh hs).code
  have htime : p1.time = _ :=
    e3.keep (get := fun p => p.time) fun x _ h hh m s s' hs => (ChangePeriod.effect hh hs).time
  exact ⟨ind, asg, p1, h1, e1, e2, e3, e4, ⟨hR.1, hR.2, hR.3, hR.4⟩, by simp [hun, e5], hcode, htime⟩

/-- A TAF change before its groups are parsed. -/
def ChangeForecasted.start (code : PyStr) (valid : Valid) : ChangeForecasted :=
  { code := replace code py!"_" py!" ", valid := valid, indicator := ⟨none, none, valid⟩ }

/-- The text of a TAF change that is cut into groups. -/
def ChangeForecasted.text (code : PyStr) : PyStr :=
  sanitizeVisibility (sanitizeChangeIndicator (replace code py!"_" py!" "))

/-- Everything about a TAF change that was constructed without exception. -/
theorem ChangeForecasted.new_reading {code : PyStr} {valid : Valid} {p : ChangeForecasted}
    (h : ChangeForecasted.new code valid = .ok p) :
    ∃ asg p1, asg.length = (splitC 32 (ChangeForecasted.text code)).length ∧
      Spec.FirstApplicable ChangeForecasted.handlers
        (splitC 32 (ChangeForecasted.text code)) asg ∧
      Spec.Runs ChangeForecasted.handlers
        (Spec.consumed (splitC 32 (ChangeForecasted.text code)) asg)
        (ChangeForecasted.start code valid) (.ok p1) ∧
      Ordered (Spec.consumed (splitC 32 (ChangeForecasted.text code)) asg) ∧
      ChangeForecasted.Reading (Spec.consumed (splitC 32 (ChangeForecasted.text code)) asg)
        (ChangeForecasted.start code valid) p ∧
      p = { p1 with unparsed := Spec.leftover (splitC 32 (ChangeForecasted.text code)) asg } ∧
      p.code = replace code py!"_" py!" " ∧ p.valid = valid := by
  unfold ChangeForecasted.new at h
  simp only [bind_ok, pure_ok, TafIndicator.new, Except.ok.injEq] at h
  obtain ⟨ind, rfl, ⟨p1, un⟩, h2, rfl⟩ := h
  obtain ⟨asg, e1, e2, e3, e4, e5⟩ := parseSection_reading h2
  have hR := ChangeForecasted.reading e3 e4 ⟨rfl, rfl⟩ ⟨rfl, rfl⟩
  have hun : p1.unparsed = [] :=
    e3.keep (get := fun p => p.unparsed) fun x _ h hh m s s' hs =>
      (ChangeForecasted.effect hh hs).unparsed
  have hcode : p1.code = _ :=
    e3.keep (get := fun p => p.code) fun x _ h hh m s s' hs => (ChangeForecasted.effect hh hs).code
  have hvalid : p1.valid = _ :=
    e3.keep (get := fun p => p.valid) fun x _ h hh m s s' hs => (ChangeForecasted.effect hh hs).valid
  exact ⟨asg, p1, e1, e2, e3, e4, ⟨hR.1, hR.2, hR.3, hR.4⟩, by simp [hun, e5, ChangeForecasted.text],
    hcode, hvalid⟩

end Verif
