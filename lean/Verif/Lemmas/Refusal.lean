import Verif.Spec.Refusal
import Verif.Lemmas.Raises
import Verif.Lemmas.RunErr
import Verif.Lemmas.Visibility
import Verif.Lemmas.TrendPeriods
import Verif.Lemmas.TrendCut
import Verif.Props.Time

/-
The first exception of a run over the groups that are taken.
-/

namespace Verif
open Spec

variable {σ : Type}

theorem firstOf_cons (o : Option Exc) (os : List (Option Exc)) : firstOf (o :: os) = o.or (firstOf os) := by
  cases o <;> rfl

/-- A run ends with the first exception of its groups. -/
theorem Spec.Runs.exact {hs : List (Handler σ)} {c : List (PyStr × Nat)} {s : σ}
    {out : Except Exc σ} (hr : Spec.Runs hs c s out) (ho : Ordered c)
    {Rel : PyStr × Nat → Option Exc → Prop} {os : List (Option Exc)} (hE : Each Rel c os)
    {P : List (PyStr × Nat) → σ → Prop} (h0 : P c s)
    (hstep : ∀ x rest, Ordered (x :: rest) → ∀ o, Rel x o → ∀ h m s, hs[x.2]? = some h →
      h.regexp.match x.1 = some m → P (x :: rest) s →
      (∀ e, o = some e → h.run m s = .error e) ∧ (o = none → ∃ s', h.run m s = .ok s' ∧ P rest s')) :
    (∀ e, firstOf os = some e → out = .error e) ∧
    (firstOf os = none → ∃ s', out = .ok s' ∧ P [] s') := by
  induction hr generalizing os with
  | nil s =>
    cases hE
    exact ⟨fun e he => by simp [firstOf] at he, fun _ => ⟨s, rfl, h0⟩⟩
  | @fail g j rest s h m e' h1 h2 h3 =>
    cases hE with
    | @cons _ o _ os hx hE =>
      obtain ⟨k1, k2⟩ := hstep (g, j) rest ho o hx h m s h1 h2 h0
      cases o with
      | none =>
        obtain ⟨s', hs', -⟩ := k2 rfl
        rw [h3] at hs'; cases hs'
      | some e =>
        have := k1 e rfl
        rw [h3] at this; cases this
        exact ⟨fun e he => by simp [firstOf_cons] at he; rw [he], fun he => by simp [firstOf_cons] at he⟩
  | @step g j rest s h m s1 out h1 h2 h3 h4 ih =>
    cases hE with
    | @cons _ o _ os hx hE =>
      obtain ⟨k1, k2⟩ := hstep (g, j) rest ho o hx h m s h1 h2 h0
      cases o with
      | none =>
        obtain ⟨s', hs', hp⟩ := k2 rfl
        rw [h3] at hs'; cases hs'
        have := ih (List.pairwise_cons.1 ho).2 hE hp
        rw [firstOf_cons]
        exact this
      | some e =>
        have := k1 e rfl
        rw [h3] at this; cases this

/-- Parsing a section ends with the first exception of its groups. -/
theorem parseSection_exact {hs : List (Handler σ)} {text : PyStr} {s : σ} {c : List (PyStr × Nat)}
    (hc : Spec.Decodes hs (splitC 32 text) c)
    {Rel : PyStr × Nat → Option Exc → Prop} {os : List (Option Exc)} (hE : Each Rel c os)
    {P : List (PyStr × Nat) → σ → Prop} (h0 : P c s)
    (hstep : ∀ x rest, Ordered (x :: rest) → ∀ o, Rel x o → ∀ h m s, hs[x.2]? = some h →
      h.regexp.match x.1 = some m → P (x :: rest) s →
      (∀ e, o = some e → h.run m s = .error e) ∧ (o = none → ∃ s', h.run m s = .ok s' ∧ P rest s')) :
    (∀ e, firstOf os = some e → parseSection hs text s = .error e) ∧
    (firstOf os = none → ∃ s' un, parseSection hs text s = .ok (s', un) ∧ P [] s') := by
  obtain ⟨out, un, hr, ho, e⟩ := parseSection_runs (s := s) hc
  obtain ⟨h1, h2⟩ := hr.exact ho hE h0 hstep
  constructor
  · intro x hx
    rw [e, h1 x hx]; rfl
  · intro hx
    obtain ⟨s', hs', hp⟩ := h2 hx
    exact ⟨s', un, by rw [e, hs']; rfl, hp⟩

theorem Each.map_mem {α β : Type} {R R' : α → β → Prop} {l : List α} {os : List β}
    (h : Each R l os) (hf : ∀ a ∈ l, ∀ b, R a b → R' a b) : Each R' l os := by
  induction h with
  | nil => exact .nil
  | cons h1 _ ih => exact .cons (hf _ (by simp) _ h1) (ih fun a ha => hf a (by simp [ha]))

theorem Each.exists {α β : Type} {R : α → β → Prop} {l : List α}
    (hf : ∀ a ∈ l, ∃ b, R a b) : ∃ os, Each R l os := by
  induction l with
  | nil => exact ⟨[], .nil⟩
  | cons a l ih =>
    obtain ⟨b, hb⟩ := hf a (by simp)
    obtain ⟨os, ho⟩ := ih fun a ha => hf a (by simp [ha])
    exact ⟨b :: os, .cons hb ho⟩

/-- Room for the groups that are left. -/
def Left (P : Nat → σ → Prop) (rest : List (PyStr × Nat)) (s : σ) : Prop :=
  ∃ k, P k s ∧ ∀ x ∈ rest, k ≤ x.2

theorem Left.at {P : Nat → σ → Prop} (mono : ∀ k s, P k s → P (k + 1) s) {x : PyStr × Nat}
    {rest : List (PyStr × Nat)} {s : σ} (h : Left P (x :: rest) s) : P x.2 s := by
  obtain ⟨k, h1, h2⟩ := h
  have := h2 x (by simp)
  obtain ⟨j, hj⟩ : ∃ j, x.2 = k + j := ⟨x.2 - k, by omega⟩
  rw [hj]
  clear h2 this hj
  induction j with
  | zero => exact h1
  | succ j ih => exact mono _ _ ih

theorem Left.next {P : Nat → σ → Prop} {x : PyStr × Nat} {rest : List (PyStr × Nat)} {s : σ}
    (ho : Ordered (x :: rest)) (h : P (x.2 + 1) s) : Left P rest s :=
  ⟨_, h, fun y hy => (List.pairwise_cons.1 ho).1 y hy⟩

theorem Post.never {α : Type} {P : α → Prop} {x : Except Exc α} (h : Post (fun _ => False) P x) :
    ∃ a, x = .ok a ∧ P a := by
  cases x with
  | error e => exact (h.1 e rfl).elim
  | ok a => exact ⟨a, rfl, h.2 a rfl⟩

theorem Raises.of_ok {α : Type} {Q : Exc → Prop} {x : Except Exc α} (h : ∃ a, x = .ok a) : Raises Q x := by
  obtain ⟨a, rfl⟩ := h; exact Raises.ok a

theorem vis_exact_raise {g : PyStr} {m : Match} {o : Option Exc} (h : VisRaises g o)
    (hm : MetarRegExp.VISIBILITY.match g = some m) :
    (∀ e, o = some e → prevailing m = .error e) ∧ (o = none → ∃ x, prevailing m = .ok x) := by
  obtain ⟨w, hw, rfl, rfl⟩ := h
  obtain ⟨m', h1, h2, h3⟩ := metarVis_match w hw
  rw [hm] at h1
  cases h1
  exact ⟨h2, fun h => (h3 h).imp fun _ h => h.1⟩

theorem minVis_exact_raise {g : PyStr} {m : Match} {o : Option Exc} (h : MinVisRaises g o)
    (hm : MetarRegExp.MINIMUM_VISIBILITY.match g = some m) :
    (∀ e, o = some e → minimumVisibility m = .error e) ∧
      (o = none → ∃ x, minimumVisibility m = .ok x) := by
  obtain ⟨w, ⟨hw, v, d, rfl⟩, rfl, rfl⟩ := h
  obtain ⟨m', h1, h2, h3⟩ := minVis_match v d hw
  rw [hm] at h1
  cases h1
  exact ⟨h2, fun h => (h3 h).imp fun _ h => h.1⟩

theorem append_three {a b c d e f z : PyStr} (h : a ++ b ++ c ++ z = d ++ e ++ f ++ z)
    (h1 : a.length = d.length) (h2 : b.length = e.length) : a = d ∧ b = e ∧ c = f := by
  have e := List.append_cancel_right h
  rw [List.append_assoc, List.append_assoc] at e
  obtain ⟨e1, e⟩ := List.append_inj e h1
  obtain ⟨e2, e⟩ := List.append_inj e h2
  exact ⟨e1, e2, e⟩

theorem time_exact_raise {now : Now} {a : Args} {y mo : Nat} (hy : a.year.getD now.year = (y : Int))
    (hmo : a.month.getD now.month = (mo : Int)) (hy1 : 1000 ≤ y) (hy2 : y ≤ 9999) (hm1 : 1 ≤ mo)
    (hm2 : mo ≤ 12) {g : PyStr} {m : Match} {o : Option Exc} (h : TimeRaises y mo g o)
    (hm : MetarRegExp.TIME.match g = some m) (hn : 10 ∉ g) :
    (∀ e, o = some e → Time.fromMetar now (some m) a.year a.month = .error e) ∧
      (o = none → ∃ x, Time.fromMetar now (some m) a.year a.month = .ok x) := by
  obtain ⟨d, h, i, e, l1, l2, l3, hv⟩ := h
  obtain ⟨d', h', i', e', k1, k2, k3, -, -, -, v1, v2⟩ :=
    Props.time_value hy hmo hy1 hy2 hm1 hm2 hm hn
  obtain ⟨rfl, rfl, rfl⟩ := append_three (e.symm.trans e') (by omega) (by omega)
  rcases hv with ⟨hv, rfl⟩ | ⟨hv, rfl⟩
  · exact ⟨(fun e he => by cases he), fun _ => ⟨_, v1 hv⟩⟩
  · refine ⟨fun e he => ?_, fun he => by cases he⟩
    cases he
    exact v2 hv

/-- The body of a METAR ends with the first exception of its groups. -/
theorem Metar.body_exact {db : Database} {now : Now} {a : Args} {y mo : Nat}
    (hy : a.year.getD now.year = (y : Int)) (hmo : a.month.getD now.month = (mo : Int))
    (hy1 : 1000 ≤ y) (hy2 : y ≤ 9999) (hm1 : 1 ≤ mo) (hm2 : mo ≤ 12)
    {text : PyStr} (hn : 10 ∉ text) {r : Metar} (h0 : MetarRoom 0 r) {c : List (PyStr × Nat)}
    (hc : Decodes (Metar.handlers db now a) (splitC 32 text) c) {os : List (Option Exc)}
    (hE : Each (MetarRaises y mo) c os) :
    (∀ e, firstOf os = some e → parseSection (Metar.handlers db now a) text r = .error e) ∧
    (firstOf os = none → ∃ r' un, parseSection (Metar.handlers db now a) text r = .ok (r', un)) := by
  have hgn : ∀ x ∈ c, 10 ∉ x.1 := by
    intro x hx
    rw [(decodes_iff _ _ _).1 hc] at hx
    exact not_mem_splitC hn x.1 (consumed_mem hx)
  have hE' : Each (fun x o => 10 ∉ x.1 ∧ MetarRaises y mo x o) c os :=
    Each.map_mem hE fun x hx o h => ⟨hgn x hx, h⟩
  obtain ⟨h1, h2⟩ := parseSection_exact (s := r) hc hE' (P := Left MetarRoom)
    ⟨0, h0, fun _ _ => Nat.zero_le _⟩ (by
    rintro x rest ho o ⟨hnx, hx⟩ h m s hh hm hp
    constructor
    · rintro e rfl
      unfold MetarRaises at hx
      split at hx
      · next hk =>
        rw [hk] at hh
        cases hh
        simp only [Metar.handleTime] at hm ⊢
        rw [(time_exact_raise hy hmo hy1 hy2 hm1 hm2 hx hm hnx).1 e rfl]; rfl
      · split at hx
        · next hk =>
          rw [hk] at hh
          cases hh
          simp only [Metar.lift, liftCore_error]
          unfold Core.handlePrevailing
          rw [(vis_exact_raise hx hm).1 e rfl]; rfl
        · split at hx
          · next hk =>
            rw [hk] at hh
            cases hh
            simp only [Metar.handleMinimumVisibility]
            rw [(minVis_exact_raise hx hm).1 e rfl]; rfl
          · cases hx
    · rintro rfl
      have hall := metarHandlers db now a (Q := fun _ => False)
        (G := fun k g => 10 ∉ g ∧ MetarRaises y mo (g, k) none)
        (fun g m hg hm => Raises.of_ok
          ((time_exact_raise hy hmo hy1 hy2 hm1 hm2 (by simpa [MetarRaises] using hg.2) hm hg.1).2 rfl))
        (fun g m hg hm => Raises.of_ok
          ((vis_exact_raise (by simpa [MetarRaises] using hg.2) hm).2 rfl))
        (fun g m hg hm => Raises.of_ok
          ((minVis_exact_raise (by simpa [MetarRaises] using hg.2) hm).2 rfl))
      have := hall.get hh x.1 m s (by rw [Nat.zero_add]; exact ⟨hnx, hx⟩) hm
        (by rw [Nat.zero_add]; exact hp.at fun _ _ h => h.mono)
      obtain ⟨s', hs', hp'⟩ := Post.never this
      rw [Nat.zero_add] at hp'
      exact ⟨s', hs', Left.next ho hp'⟩)
  exact ⟨h1, fun h => by obtain ⟨r', un, h, -⟩ := h2 h; exact ⟨r', un, h⟩⟩

/-! ### Trends -/

theorem same_hour {t : DT} (ht : t.valid = true) {n : Nat} (hn : n ≤ 59) :
    ∃ u, t.addMinutes ((n : Int) - (t.minute : Int)) = .ok u := by
  refine ⟨{ t with minute := n }, addMinutes_iff.2 ⟨?_, ?_⟩⟩
  · rw [DT.valid_iff] at ht ⊢
    exact ⟨ht.1, ht.2.1, by simp; omega⟩
  · simp only [DT.toMinutes]
    omega

theorem addPeriod_total {i : TrendIndicator} {t : DT} {g : PyStr} {m : Match}
    (hm : MetarRegExp.TREND_TIME_PERIOD.match g = some m) (hi : i.init.time = t)
    (ht : t.valid = true) (he : After t 120 i.end_.time) (hc : i.code ≠ none) :
    ∃ i', i.addPeriod m = .ok i' ∧ i'.init = i.init ∧ i'.end_ = i.end_ ∧ i'.code ≠ none := by
  obtain ⟨k1, k2⟩ := (after_iff ht).1 he
  have r1 := toMinutes_range ht
  have r2 := toMinutes_range k1
  obtain ⟨mid, hv, em⟩ := exists_minutes (n := t.toMinutes + 60) (by omega) (by omega)
  have hmid : t.addHours 1 = .ok mid := addMinutes_iff.2 ⟨hv, by omega⟩
  obtain ⟨wh, _, _, _, hh⟩ := pyInt_group (n := .hour) (b := 24) (by decide +kernel)
    (by decide +kernel) hm
  obtain ⟨wn, _, _, hle, hn⟩ := pyInt_group (n := .min) (b := 59) (by decide +kernel)
    (by decide +kernel) hm
  cases hcode : i.code with
  | none => exact absurd hcode hc
  | some c =>
    unfold TrendIndicator.addPeriod TrendIndicator.extendCode
    rw [hi]
    have hpt : ∀ hour n : Nat, n ≤ 59 → ∃ u, i.periodTime mid hour n = .ok u := by
      intro hour n hn
      unfold TrendIndicator.periodTime
      split
      · rw [hi]; exact same_hour ht hn
      · split
        · exact same_hour hv hn
        · exact same_hour k1 hn
    obtain ⟨u, hu⟩ := hpt (digitsVal wh) _ hle
    simp only [hcode, ok_bind, hmid, hh, hn, hu]
    split
    · exact ⟨_, rfl, rfl, rfl, by simp⟩
    · split <;> exact ⟨_, rfl, rfl, rfl, by simp⟩

/-- What is known of a trend while it is read. -/
structure TrendRoom (t : DT) (k : Nat) (p : ChangePeriod) : Prop where
  core : CoreRoom 5 8 k p.core
  time : p.time = t
  init : p.indicator.init.time = t
  end_ : After t 120 p.indicator.end_.time

theorem TrendRoom.mono {t : DT} {k : Nat} {p : ChangePeriod} (h : TrendRoom t k p) :
    TrendRoom t (k + 1) p := ⟨h.1.mono, h.2, h.3, h.4⟩

theorem TrendIndicator.new_total {t u : DT} (ht : t.valid = true) (hu : After t 120 u) (o : Option Match)
    (h : ∀ m, o = some m → startsWith m.string py!"PROB" = false) :
    ∃ i, TrendIndicator.new o t = .ok i ∧ i.init.time = t ∧ After t 120 i.end_.time ∧
      (i.code = none ↔ o = none) := by
  have h1 : t.addHours 2 = .ok u := (addMinutes_after ht).2 hu
  cases o with
  | none =>
    refine ⟨⟨none, none, Time.ofDT t, Time.ofDT u, Time.ofDT t, Time.ofDT u, none⟩, ?_, rfl, hu,
      by simp⟩
    unfold TrendIndicator.new
    simp only [changeIndicatorO, ok_bind, h1]
    rfl
  | some m =>
    obtain ⟨tr, htr⟩ := changeIndicator_total (h m rfl)
    refine ⟨⟨groupCode (some m.string), tr, Time.ofDT t, Time.ofDT u, Time.ofDT t, Time.ofDT u, none⟩,
      ?_, rfl, hu, by simp [groupCode]⟩
    unfold TrendIndicator.new
    simp only [changeIndicatorO, htr, ok_bind, h1]
    rfl

theorem TrendIndicator.new_late {t : DT} (ht : t.valid = true) (hu : ¬ ∃ u, After t 120 u) :
    TrendIndicator.new none t = .error .overflow := by
  unfold TrendIndicator.new
  simp only [changeIndicatorO, ok_bind]
  have : t.addHours 2 = .error .overflow := by
    cases h : t.addHours 2 with
    | ok u => exact absurd ⟨u, (addMinutes_after ht).1 h⟩ hu
    | error e => rw [addMinutes_raises _ _ e h]
  rw [this]; rfl

theorem trend_step {t u : DT} (ht : t.valid = true) (hu : After t 120 u) {c rest : List (PyStr × Nat)}
    {x : PyStr × Nat} (ho : Ordered (x :: rest)) (hxc : x ∈ c) {o : Option Exc} (hx : TrendRaises c x o)
    {h : Handler ChangePeriod} {m : Match} {s : ChangePeriod}
    (hh : ChangePeriod.handlers[x.2]? = some h) (hm : h.regexp.match x.1 = some m)
    (hroom : TrendRoom t x.2 s)
    (hcode : x.2 ≠ 0 → (s.indicator.code = none ↔ ∀ g, (g, 0) ∉ c)) :
    (∀ e, o = some e → h.run m s = .error e) ∧ (o = none → ∃ s', h.run m s = .ok s' ∧
      Left (TrendRoom t) rest s' ∧ ((∃ g, (g, 0) ∈ rest) ∨
        (s'.indicator.code = none ↔ ∀ g, (g, 0) ∉ c))) := by
  obtain ⟨g, k⟩ := x
  -- a handler of the shared attributes
  have hlift : ∀ f : Match → Core → Except Exc Core, k ≠ 0 → h.run = ChangePeriod.lift f →
      Post (fun _ => False) (CoreRoom 5 8 (k + 1)) (f m s.core) →
      ∃ s', h.run m s = .ok s' ∧ Left (TrendRoom t) rest s' ∧ ((∃ g, (g, 0) ∈ rest) ∨
        (s'.indicator.code = none ↔ ∀ g, (g, 0) ∉ c)) := by
    intro f hk hf hp
    obtain ⟨x, hx, hp⟩ := Post.never hp
    refine ⟨{ s with core := x }, ?_, Left.next ho ⟨hp, hroom.2, hroom.3, hroom.4⟩, .inr (hcode hk)⟩
    rw [hf]
    exact liftCore_ok.2 ⟨x, hx, rfl⟩
  have hperiod : k = 1 ∨ k = 2 → h.run = ChangePeriod.handleTimePeriod →
      MetarRegExp.TREND_TIME_PERIOD.match g = some m →
      (∀ e, o = some e → h.run m s = .error e) ∧ (o = none → ∃ s', h.run m s = .ok s' ∧
        Left (TrendRoom t) rest s' ∧ ((∃ g, (g, 0) ∈ rest) ∨
          (s'.indicator.code = none ↔ ∀ g, (g, 0) ∉ c))) := by
    intro hk hr hm
    have hcode := hcode (by show k ≠ 0; omega)
    rw [hr]
    unfold ChangePeriod.handleTimePeriod
    simp only [TrendRaises, if_pos hk] at hx
    rcases hx with ⟨⟨g0, hg0⟩, rfl⟩ | ⟨hno, rfl⟩
    · refine ⟨(fun e he => by cases he), fun _ => ?_⟩
      obtain ⟨i', e1, e2, e3, e4⟩ := addPeriod_total hm hroom.init ht hroom.end_
        fun h => hcode.1 h g0 hg0
      rw [e1]
      refine ⟨_, rfl, Left.next ho ⟨⟨hroom.core.1.mono, hroom.core.2.mono⟩, hroom.time, ?_, ?_⟩,
        .inr ⟨fun h => absurd h e4, fun h => absurd hg0 (h g0)⟩⟩
      · show i'.init.time = t
        rw [e2]; exact hroom.init
      · show After t 120 i'.end_.time
        rw [e3]; exact hroom.end_
    · refine ⟨fun e he => ?_, fun he => by cases he⟩
      cases he
      have : s.indicator.addPeriod m = .error .type := by
        unfold TrendIndicator.addPeriod TrendIndicator.extendCode
        rw [hcode.2 hno]; rfl
      rw [this]; rfl
  have hnone : k ≠ 1 → k ≠ 2 → k ≠ 4 → o = none := fun h1 h2 h4 => by
    simpa [TrendRaises, h1, h2, h4] using hx
  have hfine : o = none → (∃ s', h.run m s = .ok s' ∧
      Left (TrendRoom t) rest s' ∧ ((∃ g, (g, 0) ∈ rest) ∨
        (s'.indicator.code = none ↔ ∀ g, (g, 0) ∉ c))) →
      (∀ e, o = some e → h.run m s = .error e) ∧ (o = none → ∃ s', h.run m s = .ok s' ∧
      Left (TrendRoom t) rest s' ∧ ((∃ g, (g, 0) ∈ rest) ∨
        (s'.indicator.code = none ↔ ∀ g, (g, 0) ∉ c))) :=
    fun h1 h2 => ⟨(fun e he => by rw [h1] at he; cases he), fun _ => h2⟩
  have hweather : ∀ k', k = k' → 5 ≤ k' → k' < 8 → h = ⟨MetarRegExp.WEATHER, ChangePeriod.lift Core.handleWeather⟩ →
      (∀ e, o = some e → h.run m s = .error e) ∧ (o = none → ∃ s', h.run m s = .ok s' ∧
      Left (TrendRoom t) rest s' ∧ ((∃ g, (g, 0) ∈ rest) ∨
        (s'.indicator.code = none ↔ ∀ g, (g, 0) ∉ c))) := by
    rintro k' rfl h1 h2 rfl
    exact hfine (hnone (by omega) (by omega) (by omega)) (hlift _ (by omega) rfl
      (weather_post hroom.core h1 h2))
  have hcloud : ∀ k', k = k' → 8 ≤ k' → k' < 12 → h = ⟨MetarRegExp.CLOUD, ChangePeriod.lift Core.handleCloud⟩ →
      (∀ e, o = some e → h.run m s = .error e) ∧ (o = none → ∃ s', h.run m s = .ok s' ∧
      Left (TrendRoom t) rest s' ∧ ((∃ g, (g, 0) ∈ rest) ∨
        (s'.indicator.code = none ↔ ∀ g, (g, 0) ∉ c))) := by
    rintro k' rfl h1 h2 rfl
    exact hfine (hnone (by omega) (by omega) (by omega)) (hlift _ (by omega) rfl
      (cloud_post hm hroom.core h1 h2))
  simp only at hh hm
  match k, hh with
  | 0, hh =>
    cases hh
    obtain ⟨i', hi', j1, j2, j3⟩ := TrendIndicator.new_total ht hu (some m) (by
      intro m' e
      cases e
      rw [RE.match_string hm]
      exact metar_change_head hm)
    refine hfine (hnone (by omega) (by omega) (by omega))
      ⟨{ s with indicator := i', core := s.core.concat i'.str }, ?_,
        Left.next ho ⟨⟨hroom.core.1.mono, hroom.core.2.mono⟩, hroom.time, j1, j2⟩,
        .inr ⟨fun h => by simp [j3] at h, fun h => absurd hxc (h g)⟩⟩
    simp only [ChangePeriod.handleTrendIndicator]
    rw [hroom.time, hi']; rfl
  | 1, hh => cases hh; exact hperiod (.inl rfl) rfl hm
  | 2, hh => cases hh; exact hperiod (.inr rfl) rfl hm
  | 3, hh =>
    cases hh
    exact hfine (hnone (by omega) (by omega) (by omega)) (hlift _ (by omega) rfl
      (wind_post windLike_metar hm hroom.core))
  | 4, hh =>
    cases hh
    simp only [TrendRaises] at hx
    rw [if_neg (by omega), if_pos trivial] at hx
    have hv := vis_exact_raise hx hm
    constructor
    · intro e he
      simp only [ChangePeriod.lift, liftCore_error]
      unfold Core.handlePrevailing
      rw [hv.1 e he]; rfl
    · intro he
      exact hlift _ (by omega) rfl (prevailing_post (Raises.of_ok (hv.2 he)) hroom.core)
  | 5, hh => cases hh; exact hweather 5 rfl (by omega) (by omega) rfl
  | 6, hh => cases hh; exact hweather 6 rfl (by omega) (by omega) rfl
  | 7, hh => cases hh; exact hweather 7 rfl (by omega) (by omega) rfl
  | 8, hh => cases hh; exact hcloud 8 rfl (by omega) (by omega) rfl
  | 9, hh => cases hh; exact hcloud 9 rfl (by omega) (by omega) rfl
  | 10, hh => cases hh; exact hcloud 10 rfl (by omega) (by omega) rfl
  | 11, hh => cases hh; exact hcloud 11 rfl (by omega) (by omega) rfl
  | k + 12, hh => cases hh

/-- A trend of a report issued at `t` ends with the first exception of its groups. -/
theorem ChangePeriod.new_exact {t : DT} (ht : t.valid = true) {u : DT} (hu : After t 120 u)
    {code : PyStr} {c : List (PyStr × Nat)}
    (hc : Decodes ChangePeriod.handlers (bodyGroups (replace code py!"_" py!" ")) c)
    {os : List (Option Exc)} (hE : Each (TrendRaises c) c os) :
    (∀ e, firstOf os = some e → ChangePeriod.new code t = .error e) ∧
    (firstOf os = none → ∃ p, ChangePeriod.new code t = .ok p) := by
  obtain ⟨i, hi, i1, i2, i3⟩ := TrendIndicator.new_total ht hu none (by simp)
  have i3 := i3.2 rfl
  have hE' : Each (fun x o => x ∈ c ∧ TrendRaises c x o) c os :=
    Each.map_mem hE fun x hx o h => ⟨hx, h⟩
  obtain ⟨h1, h2⟩ := parseSection_exact
    (s := { code := some (replace code py!"_" py!" "), time := t, indicator := i }) hc hE'
    (P := fun rest p => Left (TrendRoom t) rest p ∧ ((∃ g, (g, 0) ∈ rest) ∨
      (p.indicator.code = none ↔ ∀ g, (g, 0) ∉ c))) (by
    refine ⟨⟨0, ⟨CoreRoom.new 5 8, rfl, i1, i2⟩, fun _ _ => Nat.zero_le _⟩, ?_⟩
    by_cases h : ∃ g, (g, 0) ∈ c
    · exact .inl h
    · exact .inr ⟨fun _ g hg => h ⟨g, hg⟩, fun _ => i3⟩) (by
    rintro x rest ho o ⟨hxc, hx⟩ h m s hh hm ⟨hl, hcode⟩
    have hroom := hl.at fun _ _ h => TrendRoom.mono h
    have hcode' : x.2 ≠ 0 → (s.indicator.code = none ↔ ∀ g, (g, 0) ∉ c) := by
      intro h0
      rcases hcode with ⟨g, hg⟩ | h
      · rcases List.mem_cons.1 hg with rfl | hg
        · exact absurd rfl h0
        · have := (List.pairwise_cons.1 ho).1 _ hg
          simp at this
      · exact h
    exact trend_step ht hu ho hxc hx hh hm hroom hcode')
  unfold ChangePeriod.new
  rw [hi]
  constructor
  · intro e he
    have := h1 e he
    simp only [ok_bind]
    rw [this]; rfl
  · intro he
    obtain ⟨p, un, hp, -⟩ := h2 he
    simp only [ok_bind]
    rw [hp]
    exact ⟨_, rfl⟩

end Verif
