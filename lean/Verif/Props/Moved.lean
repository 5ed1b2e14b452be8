import Verif.Spec.Moved
import Verif.Props.Own
import Verif.Props.Local
import Verif.Lemmas.YearMonth
import Verif.Props.Codes
import Verif.Props.Indicators

/-
One text read in different months (C105).
-/

namespace Verif.Props
open Verif Verif.Spec

/-! ### Times -/

theorem minutes_clock {t : DT} (ht : IsTime t) : minutes t % 1440 = t.hour * 60 + t.minute := by
  have := ht.hour
  have := ht.minute
  unfold minutes
  omega

theorem minutes_midnight (t : DT) : minutes t = minutes (midnight t) + (t.hour * 60 + t.minute) := by
  unfold minutes midnight
  simp only
  omega

theorem minutes_hour (t : DT) : minutes t = minutes { t with minute := 0 } + t.minute := by
  unfold minutes
  simp only
  omega

theorem Spec.Moved.clock {t t' u u' : DT} (ht : IsTime t) (ht' : IsTime t') (h : Moved t t' u u')
    (hh : t.hour = t'.hour) (hm : t.minute = t'.minute) : u.hour = u'.hour ∧ u.minute = u'.minute := by
  obtain ⟨n, ⟨hu, e⟩, hu', e'⟩ := h
  have h1 := minutes_clock ht
  have h2 := minutes_clock ht'
  have h3 := minutes_clock hu
  have h4 := minutes_clock hu'
  have := hu.minute
  have := hu'.minute
  omega

theorem takes_moved {t t' u u' : DT} {d h : Nat} (hs : SameClock t t') (hu : Takes t d h u)
    (hu' : Takes t' d h u') : Moved t t' u u' := by
  obtain ⟨s1, s2, s3⟩ := hs
  have e := takes_minutes hu
  have e' := takes_minutes hu'
  have m := minutes_midnight t
  have m' := minutes_midnight t'
  have i : IsTime u := by obtain ⟨_, -, -, h⟩ := hu; exact h.1
  have i' : IsTime u' := by obtain ⟨_, -, -, h⟩ := hu'; exact h.1
  have hh : hourOf t' d h = hourOf t d h := by unfold hourOf; rw [s1]
  refine ⟨hourOf t d h - (t.hour * 60 + t.minute), ⟨i, by omega⟩, i', by omega⟩

theorem period_moved {t t' u u' : DT} {w : PeriodGroup} (hh : t.hour = t'.hour) (hm : t.minute = t'.minute)
    (hu : w.Takes t u) (hu' : w.Takes t' u') : Moved t t' u u' := by
  obtain ⟨k, hk, i, e⟩ := hu
  obtain ⟨k', hk', i', e'⟩ := hu'
  have : k = k' := by
    unfold PeriodGroup.Hours at hk hk'
    rw [← hh] at hk'
    omega
  subst this
  have m := minutes_hour t
  have m' := minutes_hour t'
  exact ⟨60 * k + digitsVal w.minute - t.minute, ⟨i, by omega⟩, i', by omega⟩

theorem lastOf_or_none (k : PeriodKind) : ∀ gs : List PyStr, (∀ g ∈ gs, ∃ w : PeriodGroup, w.WF ∧ g = w.text) →
    NoneOf k gs ∨ ∃ w, LastOf k gs w := by
  intro gs hg
  induction gs with
  | nil => exact .inl fun w _ h => by cases h
  | cons g gs ih =>
    rcases ih fun g h => hg g (List.mem_cons_of_mem _ h) with hn | ⟨w, h1, h2, pre, post, e, h3⟩
    · obtain ⟨w, hw, rfl⟩ := hg g List.mem_cons_self
      by_cases hk : w.kind = k
      · exact .inr ⟨w, hw, hk, [], gs, rfl, hn⟩
      · refine .inl fun w' hw' hm => ?_
        rcases List.mem_cons.1 hm with he | hm
        · -- the text determines the kind
          have : w'.kind = w.kind := by
            unfold PeriodGroup.text at he
            cases hk1 : w.kind <;> cases hk2 : w'.kind <;> rw [hk1, hk2] at he <;>
              first | rfl | (simp [PeriodKind.text] at he)
          rw [this]; exact hk
        · exact hn w' hw' hm
    · exact .inr ⟨w, h1, h2, g :: pre, post, by rw [e]; rfl, h3⟩

theorem ordered_same {c : List (PyStr × Nat)} (ho : Ordered c) {i : Nat} {g g' : PyStr} (hg : (g, i) ∈ c)
    (hg' : (g', i) ∈ c) : g = g' := by
  have h1 := mem_taken.1 hg
  have h2 := mem_taken.1 hg'
  have h3 := taken_unique ho i
  cases e : taken c i i with
  | nil => rw [e] at h1; cases h1
  | cons x l =>
    cases l with
    | nil => rw [e] at h1 h2; rw [List.mem_singleton.1 h1, List.mem_singleton.1 h2]
    | cons y l => rw [e] at h3; simp at h3

/-! ### C105 -/

/-- C105. Two trends with the same text, of reports made at the same time of the day: the texts of the
indicators and the forecasts are the same, and all times lie equally far from the times of the reports. -/
theorem C105_trend (db db' : Database) (clock clock' : Clock) (code code' : PyStr) (a a' : Args) (r r' : Metar)
    (h : Metar.new db clock code a = .ok r) (h' : Metar.new db' clock' code' a' = .ok r')
    (p p' : ChangePeriod) (hp : p ∈ r.weatherTrends.list) (hp' : p' ∈ r'.weatherTrends.list)
    (hcode : p.code = p'.code) (hh : r.time.time.hour = r'.time.time.hour)
    (hm : r.time.time.minute = r'.time.time.minute) :
    TrendMoved r.time.time r'.time.time p.indicator p'.indicator ∧ SameForecast p.core p'.core := by
  have hv := (isTime_iff _).2 (Metar.time_valid h)
  have hv' := (isTime_iff _).2 (Metar.time_valid h')
  obtain ⟨text, ht⟩ : ∃ text, p.code = some text := by
    obtain ⟨-, time, -, -, -, -, -, -, -, -, -, e, -⟩ := Metar.new_reading h
    obtain ⟨t, -, h1⟩ := Verif.Each.mem_right e hp
    obtain ⟨-, -, -, -, -, -, -, -, -, -, k, -⟩ := ChangePeriod.new_reading h1
    exact ⟨_, k⟩
  have ht' : p'.code = some text := hcode ▸ ht
  obtain ⟨c, hc⟩ : ∃ c, Decodes ChangePeriod.handlers (bodyGroups text) c := ⟨_, (decodes_iff _ _ _).2 rfl⟩
  obtain ⟨hF, -⟩ := C99_trend db db' clock clock' code code' a a' r r' h h' p p' hp hp' text text ht ht' c c hc hc
  refine ⟨?_, ⟨hF.wind rfl, hF.prevailing rfl, hF.weathers rfl, hF.clouds rfl⟩⟩
  have code1 := (C53_trend_codes db clock code a r h p hp text ht c hc).1
  have code2 := (C53_trend_codes db' clock' code' a' r' h' p' hp' text ht' c hc).1
  obtain ⟨t0, w1, w2, w3, w4, w5, e1, e2, e3, e4⟩ := trend_times h hp ht hc
  obtain ⟨s0, v1, v2, v3, v4, v5, d1, d2, -, d4⟩ := trend_times h' hp' ht' hc
  obtain ⟨-, -, -, ho, -⟩ := Metar.trend_decodes h hp ht hc
  have hi : Moved r.time.time r'.time.time p.indicator.init.time p'.indicator.init.time := by
    rw [e1, d1, w1, v1]
    exact ⟨0, ⟨hv, by omega⟩, hv', by omega⟩
  have hE : Moved r.time.time r'.time.time p.indicator.end_.time p'.indicator.end_.time := by
    rw [e2, d2]
    exact ⟨120, w2, v2⟩
  have key : ∀ k, (NoneOf k (taken c 1 2) ∧ p.indicator.timeOf k = t0.timeOf k ∧ p'.indicator.timeOf k = s0.timeOf k) ∨
      ∃ x x', p.indicator.timeOf k = some x ∧ p'.indicator.timeOf k = some x' ∧
        Moved r.time.time r'.time.time x x' := by
    intro k
    rcases lastOf_or_none k (taken c 1 2) e3 with hn | ⟨w, hw⟩
    · exact .inl ⟨hn, (e4 k).1 hn, (d4 k).1 hn⟩
    · obtain ⟨x, hx, hwx⟩ := (e4 k).2.2 w hw
      obtain ⟨x', hx', hwx'⟩ := (d4 k).2.2 w hw
      exact .inr ⟨x, x', hx, hx', period_moved hh hm hwx hwx'⟩
  have k1 := key .from_
  have k2 := key .until_
  have k3 := key .at_
  simp only [TrendIndicator.timeOf, Option.some.injEq, w3, w4, w5, v3, v4, v5] at k1 k2 k3
  constructor
  · rcases code1 with ⟨g, hg, q⟩ | ⟨hg, -, q⟩ <;> rcases code2 with ⟨g', hg', q'⟩ | ⟨hg', -, q'⟩
    · rw [q, q', ordered_same ho hg hg']
    · exact absurd hg (hg' g)
    · exact absurd hg' (hg g')
    · rw [q, q']
  · exact hi
  · exact hE
  · rcases k1 with ⟨-, x1, x2⟩ | ⟨x, x', x1, x2, hm⟩
    · rw [x1, x2, ← e1, ← d1]; exact hi
    · rw [x1, x2]; exact hm
  · rcases k2 with ⟨-, x1, x2⟩ | ⟨x, x', x1, x2, hm⟩
    · rw [x1, x2, ← e2, ← d2]; exact hE
    · rw [x1, x2]; exact hm
  · rcases k3 with ⟨-, x1, x2⟩ | ⟨x, x', x1, x2, hm⟩
    · exact .inl ⟨by simpa using x1, by simpa using x2⟩
    · simp only [Option.map_eq_some_iff] at x1 x2
      obtain ⟨y, y1, rfl⟩ := x1
      obtain ⟨y', y1', rfl⟩ := x2
      exact .inr ⟨y, y', y1, y1', hm⟩

/-- The year and month given are of four digits and of the calendar. -/
def GoodArgs (a : Args) : Prop :=
  (∀ x, a.year = some x → 1000 ≤ x ∧ x ≤ 9999) ∧ ∀ x, a.month = some x → 1 ≤ x ∧ x ≤ 12

theorem good_month {clock : Clock} (hs : Sane clock) {a : Args} (ha : GoodArgs a) (n : Nat) :
    ∃ y mo : Nat, 1000 ≤ y ∧ y ≤ 9999 ∧ 1 ≤ mo ∧ mo ≤ 12 ∧ a.year.getD (clock n).year = (y : Int) ∧
      a.month.getD (clock n).month = (mo : Int) ∧
      Time.fromMetar (clock n) none a.year a.month = .ok ⟨none, ⟨y, mo, 1, 0, 0⟩⟩ := by
  obtain ⟨y, mo, h1, h2, h3, h4, h5, h6, h7⟩ := default_time hs n a.year a.month ha.1 ha.2
  exact ⟨y, mo, h1, h2, h3, h4, h5, h6, h7⟩

theorem time_same {clock clock' : Clock} (hs : Sane clock) (hs' : Sane clock') {a a' : Args} (ha : GoodArgs a)
    (ha' : GoodArgs a') (n n' : Nat) {g : PyStr} {m : Match} (hm : MetarRegExp.TIME.match g = some m)
    (hn : 10 ∉ g) {t t' : Time} (h : Time.fromMetar (clock n) (some m) a.year a.month = .ok t)
    (h' : Time.fromMetar (clock' n') (some m) a'.year a'.month = .ok t') : SameClock t.time t'.time := by
  obtain ⟨y, mo, h1, h2, h3, h4, h5, h6, -⟩ := good_month hs ha n
  obtain ⟨y', mo', h1', h2', h3', h4', h5', h6', -⟩ := good_month hs' ha' n'
  obtain ⟨d, hh, i, e, l1, l2, l3, -, -, -, v1, v2⟩ := time_value h5 h6 h1 h2 h3 h4 hm hn
  obtain ⟨d', hh', i', e', l1', l2', l3', -, -, -, v1', v2'⟩ := time_value h5' h6' h1' h2' h3' h4' hm hn
  have f : d ++ (hh ++ (i ++ py!"Z")) = d' ++ (hh' ++ (i' ++ py!"Z")) := by
    simpa using e.symm.trans e'
  obtain ⟨f1, f2⟩ := List.append_inj f (by omega)
  obtain ⟨f2, f3⟩ := List.append_inj f2 (by omega)
  obtain ⟨f3, -⟩ := List.append_inj f3 (by omega)
  subst f1 f2 f3
  have b1 : IsTime ⟨y, mo, digitsVal d, digitsVal hh, digitsVal i⟩ := by
    refine Classical.byContradiction fun hc => ?_
    rw [v2 hc] at h; cases h
  have b2 : IsTime ⟨y', mo', digitsVal d, digitsVal hh, digitsVal i⟩ := by
    refine Classical.byContradiction fun hc => ?_
    rw [v2' hc] at h'; cases h'
  rw [v1 b1] at h
  rw [v1' b2] at h'
  cases h
  cases h'
  exact ⟨rfl, rfl, rfl⟩

theorem decodes_regexps {σ : Type} {hs hs' : List (Handler σ)} (h : hs.map (·.regexp) = hs'.map (·.regexp))
    {gs : List PyStr} {c : List (PyStr × Nat)} (hc : Decodes hs gs c) : Decodes hs' gs c := by
  rw [decodes_iff] at hc ⊢
  rw [hc, assign_regexps h]

theorem each_pair {α β γ : Type} {R : α → β → Prop} {R' : α → γ → Prop} {S : β → γ → Prop} {as : List α}
    {bs : List β} {cs : List γ} (h : Each R as bs) (h' : Each R' as cs)
    (hS : ∀ a b c, a ∈ as → b ∈ bs → c ∈ cs → R a b → R' a c → S b c) : Each S bs cs := by
  induction h generalizing cs with
  | nil => cases h'; exact .nil
  | cons hr _ ih =>
    cases h' with
    | cons hr' h' =>
      exact .cons (hS _ _ _ List.mem_cons_self List.mem_cons_self List.mem_cons_self hr hr')
        (ih h' fun a b c ha hb hc => hS a b c (List.mem_cons_of_mem _ ha) (List.mem_cons_of_mem _ hb)
          (List.mem_cons_of_mem _ hc))

theorem same_assignment {σ : Type} {hs hs' : List (Handler σ)} (h : hs.map (·.regexp) = hs'.map (·.regexp))
    {gs : List PyStr} {x y : List (Option Nat)} (h1 : x.length = gs.length) (h2 : y.length = gs.length)
    (h3 : FirstApplicable hs gs x) (h4 : FirstApplicable hs' gs y) : x = y := by
  rw [firstApplicable_unique hs gs x _ h1 (assign_length hs 0 gs) h3 (assign_firstApplicable hs gs),
    firstApplicable_unique hs' gs y _ h2 (assign_length hs' 0 gs) h4 (assign_firstApplicable hs' gs),
    assign_regexps h]

theorem each_flatMap {α β γ : Type} {R : α → β → Prop} {f : α → List γ} {f' : β → List γ} {l : List α}
    {l' : List β} (h : Each R l l') (hf : ∀ a b, R a b → f a = f' b) : l.flatMap f = l'.flatMap f' := by
  induction h with
  | nil => rfl
  | cons hr _ ih => rw [List.flatMap_cons, List.flatMap_cons, hf _ _ hr, ih]

/-- C105. One text read as a METAR with two years, months, clocks and station tables: if both readings
succeed, the times of the reports have the same day, hour and minute, everything else is the same, and the
times of the trends lie equally far from the times of the reports. -/
theorem C105_metar (db db' : Database) (clock clock' : Clock) (hs : Sane clock) (hs' : Sane clock')
    (code : PyStr) (a a' : Args) (ha : GoodArgs a) (ha' : GoodArgs a') (r r' : Metar)
    (h : Metar.new db clock code a = .ok r) (h' : Metar.new db' clock' code a' = .ok r') :
    SameClock r.time.time r'.time.time ∧ SameMetar r r' ∧ r.unparsed = r'.unparsed ∧
    Each (fun p p' : ChangePeriod => p.code = p'.code ∧ p.unparsed = p'.unparsed ∧ SameForecast p.core p'.core ∧
      TrendMoved r.time.time r'.time.time p.indicator p'.indicator) r.weatherTrends.list r'.weatherTrends.list := by
  have hb : r.body = r'.body := by
    obtain ⟨-, _, -, -, -, -, -, -, -, -, -, -, -, -, -, e, -⟩ := Metar.new_reading h
    obtain ⟨-, _, -, -, -, -, -, -, -, -, -, -, -, -, -, e', -⟩ := Metar.new_reading h'
    unfold Metar.body
    rw [e, e']
    rfl
  obtain ⟨c, hc⟩ : ∃ c, Decodes (Metar.handlers db (clock 2) a) (metarGroups r.body) c :=
    ⟨_, (decodes_iff _ _ _).2 rfl⟩
  have hc' : Decodes (Metar.handlers db' (clock' 2) a') (metarGroups r'.body) c :=
    hb ▸ decodes_regexps (by rfl) hc
  have hO := C99_metar db db' clock clock' code code a a' r r' h h' c c hc hc'
  have ht : SameClock r.time.time r'.time.time := by
    obtain ⟨t0, e0, ho, hR, hn⟩ := Metar.new_decodes h hc
    obtain ⟨t0', e0', -, hR', -⟩ := Metar.new_decodes h' hc'
    rcases hR.time with ⟨g, m, hg, hm, hx⟩ | ⟨hno, hx⟩ <;>
      rcases hR'.time with ⟨g', m', hg', hm', hx'⟩ | ⟨hno', hx'⟩
    · obtain rfl := ordered_same ho hg hg'
      rw [hm] at hm'
      cases hm'
      exact time_same hs hs' ha ha' 2 2 hm (hn g 2 hg) hx hx'
    · exact absurd hg (hno' g)
    · exact absurd hg' (hno g')
    · obtain ⟨_, _, -, -, -, -, -, -, e⟩ := good_month hs ha 1
      obtain ⟨_, _, -, -, -, -, -, -, e'⟩ := good_month hs' ha' 1
      rw [e] at e0
      rw [e'] at e0'
      cases e0
      cases e0'
      rw [hx, hx']
      exact ⟨rfl, rfl, rfl⟩
  have htr : Each (fun p p' : ChangePeriod => p.code = p'.code ∧ p.unparsed = p'.unparsed ∧ SameForecast p.core p'.core ∧
      TrendMoved r.time.time r'.time.time p.indicator p'.indicator) r.weatherTrends.list
        r'.weatherTrends.list := by
    obtain ⟨-, _, -, -, -, -, -, -, -, -, -, e, -⟩ := Metar.new_reading h
    obtain ⟨-, _, -, -, -, -, -, -, -, -, -, e', -⟩ := Metar.new_reading h'
    refine each_pair e e' fun t p p' _ hp hp' h1 h1' => ?_
    obtain ⟨-, asg, p1, -, l1, l2, -, -, -, l3, k, -⟩ := ChangePeriod.new_reading h1
    obtain ⟨-, asg', p1', -, l1', l2', -, -, -, l3', k', -⟩ := ChangePeriod.new_reading h1'
    obtain rfl := firstApplicable_unique _ _ _ _ l1 l1' l2 l2'
    have hcode : p.code = p'.code := k.trans k'.symm
    obtain ⟨q1, q2⟩ := C105_trend db db' clock clock' code code a a' r r' h h' p p' hp hp' hcode ht.2.1 ht.2.2
    exact ⟨hcode, by rw [l3, l3'], q2, q1⟩
  refine ⟨ht, ⟨hO.type rfl, hO.modifier rfl, ⟨hO.wind rfl, hO.prevailing rfl, hO.weathers rfl, hO.clouds rfl⟩,
    hO.windVariation rfl, hO.minimum rfl, hO.ranges rfl, hO.temperatures rfl, hO.pressure rfl, hO.recent rfl,
    hO.windshears rfl, hO.sea rfl, hO.runwayState rfl⟩, ?_, htr⟩
  obtain ⟨-, _, asg, _, -, -, l1, l2, -, -, -, -, -, l3, -⟩ := Metar.new_reading h
  obtain ⟨-, _, asg', _, -, -, l1', l2', -, -, -, -, -, l3', -⟩ := Metar.new_reading h'
  obtain rfl := same_assignment (by rfl) l1 l1' l2 l2'
  rw [l3, l3']
  congr 1
  exact each_flatMap htr fun _ _ k => k.2.1

/-! ### TAFs -/

theorem each_filter_map {α : Type} {R : Bool × α → Bool × α → Prop} {S : α → α → Prop} {l l' : List (Bool × α)}
    (h : Each R l l') (h1 : ∀ a b, R a b → a.1 = b.1 ∧ S a.2 b.2) :
    Each S ((l.filter (·.1)).map (·.2)) ((l'.filter (·.1)).map (·.2)) ∧
    Each S ((l.filter (!·.1)).map (·.2)) ((l'.filter (!·.1)).map (·.2)) := by
  induction h with
  | nil => exact ⟨.nil, .nil⟩
  | @cons a b l l' hr _ ih =>
    obtain ⟨e, hs⟩ := h1 a b hr
    obtain ⟨x, a⟩ := a
    obtain ⟨y, b⟩ := b
    simp only at e hs
    subst e
    cases x
    · exact ⟨ih.1, .cons hs ih.2⟩
    · exact ⟨.cons hs ih.1, ih.2⟩

/-- C105. One text read as a TAF with two years, months, clocks and station tables: if both readings succeed,
the times of the reports have the same day, hour and minute, everything that is not a time is the same, the
valid period stated and the times of the temperatures lie equally far from the times of the reports. Without a
valid group the period has the same length and begins at the same day and time of the day. -/
theorem C105_taf (db db' : Database) (clock clock' : Clock) (hs : Sane clock) (hs' : Sane clock')
    (code : PyStr) (a a' : Args) (ha : GoodArgs a) (ha' : GoodArgs a') (r r' : Taf)
    (h : Taf.new db clock code a = .ok r) (h' : Taf.new db' clock' code a' = .ok r') :
    SameClock r.time.time r'.time.time ∧ SameTaf r r' ∧
    (r.valid.code ≠ none → PeriodMoved r.time.time r'.time.time r.valid r'.valid) ∧
    (r.valid.code = none → SameClock r.valid.from_.time r'.valid.from_.time ∧
      PeriodMoved r.valid.from_.time r'.valid.from_.time r.valid r'.valid) ∧
    Each (TempMoved r.time.time r'.time.time) r.maxTemperatures.list r'.maxTemperatures.list ∧
    Each (TempMoved r.time.time r'.time.time) r.minTemperatures.list r'.minTemperatures.list := by
  have hb : r.body = r'.body := by
    obtain ⟨-, _, -, -, -, -, -, -, -, -, -, -, -, -, -, -, e, -⟩ := Taf.new_reading h
    obtain ⟨-, _, -, -, -, -, -, -, -, -, -, -, -, -, -, -, e', -⟩ := Taf.new_reading h'
    rw [e, e']
  have hv := (Taf.time_valid h).1
  have hv' := (Taf.time_valid h').1
  obtain ⟨c, hc⟩ : ∃ c, Decodes (Taf.handlers db (clock 1) a) (bodyGroups r.body) c :=
    ⟨_, (decodes_iff _ _ _).2 rfl⟩
  have hc' : Decodes (Taf.handlers db' (clock' 1) a') (bodyGroups r'.body) c :=
    hb ▸ decodes_regexps (by rfl) hc
  have hO := C99_taf db db' clock clock' code code a a' r r' h h' c c hc hc'
  obtain ⟨t0, v, e0, ev, ho, hR, hn⟩ := Taf.new_decodes h hc
  obtain ⟨t0', v', e0', ev', -, hR', -⟩ := Taf.new_decodes h' hc'
  have ht : SameClock r.time.time r'.time.time := by
    rcases hR.time with ⟨g, m, hg, hm, hx⟩ | ⟨hno, hx⟩ <;>
      rcases hR'.time with ⟨g', m', hg', hm', hx'⟩ | ⟨hno', hx'⟩
    · obtain rfl := ordered_same ho hg hg'
      rw [hm] at hm'
      cases hm'
      exact time_same hs hs' ha ha' 1 1 hm (hn g 3 hg) hx hx'
    · exact absurd hg (hno' g)
    · exact absurd hg' (hno g')
    · obtain ⟨_, _, -, -, -, -, -, -, e⟩ := default_time hs 0 none none (by simp) (by simp)
      obtain ⟨_, _, -, -, -, -, -, -, e'⟩ := default_time hs' 0 none none (by simp) (by simp)
      rw [e] at e0
      rw [e'] at e0'
      cases e0
      cases e0'
      rw [hx, hx']
      exact ⟨rfl, rfl, rfl⟩
  have hvalid : (∃ g, (g, 5) ∈ c) → r.valid.code ≠ none ∧
      PeriodMoved r.time.time r'.time.time r.valid r'.valid := by
    rintro ⟨g, hg⟩
    obtain ⟨f1, f2⟩ := C43_report db clock code a r c h hc
    obtain ⟨-, f2'⟩ := C43_report db' clock' code a' r' c h' hc'
    obtain ⟨w, hw, rfl⟩ := f1 g hg
    obtain ⟨k1, -, -, k2, k3⟩ := f2 w hw hg
    obtain ⟨k1', -, -, k2', k3'⟩ := f2' w hw hg
    exact ⟨by rw [k1]; simp, k1.trans k1'.symm, takes_moved ht k2 k2', takes_moved ht k3 k3'⟩
  have hnone : (∀ g, (g, 5) ∉ c) → r.valid.code = none ∧ SameClock r.valid.from_.time r'.valid.from_.time ∧
      PeriodMoved r.valid.from_.time r'.valid.from_.time r.valid r'.valid := by
    intro hno
    obtain ⟨k1, k2, k3⟩ := C44_report db clock hs code a r c h hc hno
    obtain ⟨k1', k2', k3'⟩ := C44_report db' clock' hs' code a' r' c h' hc' hno
    have i := (isTime_iff _).2 (Taf.time_valid h).2.1
    have i' := (isTime_iff _).2 (Taf.time_valid h').2.1
    refine ⟨k3, ?_, k3.trans k3'.symm, ⟨0, ⟨i, by omega⟩, i', by omega⟩, ⟨1440, k2, k2'⟩⟩
    rw [k1, k1']
    exact ⟨rfl, rfl, rfl⟩
  have htemp : Each (TempMoved r.time.time r'.time.time) r.maxTemperatures.list r'.maxTemperatures.list ∧
      Each (TempMoved r.time.time r'.time.time) r.minTemperatures.list r'.minTemperatures.list := by
    obtain ⟨ts, h1, h2, h3⟩ := hR.temperatures
    obtain ⟨ts', h1', h2', h3'⟩ := hR'.temperatures
    rw [h2, h3, h2', h3']
    refine each_filter_map (R := fun y y' => y.1 = y'.1 ∧ TempMoved r.time.time r'.time.time y.2 y'.2)
      (each_pair h1 h1' ?_) fun _ _ k => k
    rintro g y y' - - - ⟨m, hm, hy⟩ ⟨m', hm', hy'⟩
    rw [hm] at hm'
    cases hm'
    obtain ⟨w, rest, hw, he, hin⟩ := tafTemp_begin hm
    obtain ⟨k1, ⟨k2, k3⟩, k4⟩ := (tafTemp_new hw hin hv).1 y hy
    obtain ⟨k1', ⟨k2', k3'⟩, k4'⟩ := (tafTemp_new hw hin hv').1 y' hy'
    exact ⟨k1.trans k1'.symm, k4.trans k4'.symm, k2.trans k2'.symm, takes_moved ht k3 k3'⟩
  refine ⟨ht, ⟨hO.type rfl, hO.modifier rfl, hO.missing rfl, hO.cancelled rfl,
    ⟨hO.wind rfl, hO.prevailing rfl, hO.weathers rfl, hO.clouds rfl⟩⟩, ?_, ?_, htemp⟩
  · intro hne
    by_cases hg : ∃ g, (g, 5) ∈ c
    · exact (hvalid hg).2
    · exact absurd (hnone fun g k => hg ⟨g, k⟩).1 hne
  · intro hno
    by_cases hg : ∃ g, (g, 5) ∈ c
    · exact absurd hno (hvalid hg).1
    · exact (hnone fun g k => hg ⟨g, k⟩).2

/-! ### Changes -/

theorem firstDay_month {t b : DT} {d : Nat} (ht : IsTime t) (h : FirstDay t d b) (hd : t.day ≤ d)
    (hx : IsTime ⟨t.year, t.month, d, 0, 0⟩) : minutes b = minutes (midnight t) + 1440 * (d - t.day) := by
  have : FirstDay t d ⟨t.year, t.month, d, 0, 0⟩ := by
    refine ⟨hx, ⟨rfl, rfl⟩, rfl, ?_, ?_⟩
    · unfold minutes midnight
      simp only
      omega
    · intro b' k1 k2 k3 k4 k5
      refine Nat.not_lt.1 fun hlt => ?_
      have m1 : minutes b' = (daysOfYears (b'.year - 1) + daysOfMonths b'.year (b'.month - 1) + (b'.day - 1)) * 1440 := by
        unfold minutes; omega
      have m2 : minutes (midnight t) =
          (daysOfYears (t.year - 1) + daysOfMonths t.year (t.month - 1) + (t.day - 1)) * 1440 := by
        unfold minutes midnight; simp only; omega
      have m3 : minutes ⟨t.year, t.month, d, 0, 0⟩ =
          (daysOfYears (t.year - 1) + daysOfMonths t.year (t.month - 1) + (d - 1)) * 1440 := by
        unfold minutes; simp only; omega
      obtain ⟨k, hk⟩ : ∃ k, daysOfYears (b'.year - 1) + daysOfMonths b'.year (b'.month - 1) + (b'.day - 1) =
          daysOfYears (t.year - 1) + daysOfMonths t.year (t.month - 1) + (t.day - 1) + k :=
        ⟨_, (Nat.add_sub_of_le (by omega)).symm⟩
      have hp := ht.day.1
      have hkd : t.day + k < d := by omega
      obtain ⟨q, n, hn, hle⟩ := hx.day
      have i : IsTime ⟨t.year, t.month, t.day + k, 0, 0⟩ :=
        ⟨ht.year, ht.month, ⟨by simp only; omega, n, hn, by simp only at hle ⊢; omega⟩, by simp, by simp⟩
      have m4 : minutes ⟨t.year, t.month, t.day + k, 0, 0⟩ = minutes b' := by
        rw [m1, hk]; unfold minutes; simp only; omega
      have v1 := (isTime_iff _).1 i
      have v2 := (isTime_iff _).1 k1
      have e := toMinutes_inj v1 v2 (by have := minutes_eq v1; have := minutes_eq v2; omega)
      have : t.day + k = b'.day := by rw [← e]
      omega
  rw [h.unique this]
  unfold minutes midnight
  have := ht.day
  simp only
  omega

theorem fm_inj {w w' : FmGroup} {rest rest' : PyStr} (hw : w.WF) (hw' : w'.WF)
    (h : w.text ++ rest = w'.text ++ rest') : w = w' := by
  obtain ⟨d, hh, mm⟩ := w
  obtain ⟨d', hh', mm'⟩ := w'
  obtain ⟨⟨-, d1⟩, ⟨a, b, rfl, -⟩, ⟨i, j, rfl, -⟩⟩ := hw
  obtain ⟨⟨-, d1'⟩, ⟨a', b', rfl, -⟩, ⟨i', j', rfl, -⟩⟩ := hw'
  simp only at d1 d1'
  have l := padNat_length 2 d (by omega) (by omega)
  have l' := padNat_length 2 d' (by omega) (by omega)
  unfold FmGroup.text at h
  simp only [List.append_assoc, List.cons_append, List.nil_append, List.cons.injEq, true_and] at h
  obtain ⟨e, h⟩ := List.append_inj h (by omega)
  have e := congrArg digitsVal e
  rw [padNat_val, padNat_val] at e
  simp only [List.cons.injEq] at h
  obtain ⟨rfl, rfl, rfl, rfl, -⟩ := h
  rw [e]

theorem fm_moved {w : FmGroup} {t t' u u' : DT} (ht : IsTime t) (ht' : IsTime t')
    (hs : SameClock t t') (h : w.At t u) (h' : w.At t' u') (hd : t.day ≤ w.day)
    (hx : IsTime ⟨t.year, t.month, w.day, 0, 0⟩) (hx' : IsTime ⟨t'.year, t'.month, w.day, 0, 0⟩) :
    Moved t t' u u' := by
  obtain ⟨s1, s2, s3⟩ := hs
  obtain ⟨b, hb, i, e⟩ := h
  obtain ⟨b', hb', i', e'⟩ := h'
  have m := firstDay_month ht hb hd hx
  have m' := firstDay_month ht' hb' (s1 ▸ hd) hx'
  have k := minutes_midnight t
  have k' := minutes_midnight t'
  rw [← s1] at m'
  exact ⟨1440 * (w.day - t.day : Nat) + (60 * digitsVal w.hour + digitsVal w.minute) - (t.hour * 60 + t.minute),
    ⟨i, by omega⟩, i', by omega⟩

/-- C105. Two changes with the same text: the texts of the indicators and the forecasts are the same. If the
validities of the TAFs begin at the same day and time of the day, the period stated by the valid group of a
change lies equally far from these beginnings, and so does the beginning of an `FM` change whose day is
left in both months. -/
theorem C105_change (db db' : Database) (clock clock' : Clock) (code code' : PyStr) (a a' : Args) (r r' : Taf)
    (h : Taf.new db clock code a = .ok r) (h' : Taf.new db' clock' code' a' = .ok r')
    (x x' : ChangeForecasted) (hx : x ∈ r.changes.list) (hx' : x' ∈ r'.changes.list) (hcode : x.code = x'.code) :
    SameForecast x.core x'.core ∧ x.indicator.code = x'.indicator.code ∧
    (SameClock r.valid.from_.time r'.valid.from_.time →
      (HasPeriod x →
        Moved r.valid.from_.time r'.valid.from_.time x.indicator.valid.from_.time x'.indicator.valid.from_.time ∧
        (¬ IndicatorBegins py!"FM" x →
          Moved r.valid.from_.time r'.valid.from_.time x.indicator.valid.until_.time
            x'.indicator.valid.until_.time)) ∧
      (¬ HasPeriod x → ∀ (w : FmGroup) (rest : PyStr), w.WF → x.indicator.code = some (w.text ++ rest) →
        r.valid.from_.time.day ≤ w.day →
        IsTime ⟨r.valid.from_.time.year, r.valid.from_.time.month, w.day, 0, 0⟩ →
        IsTime ⟨r'.valid.from_.time.year, r'.valid.from_.time.month, w.day, 0, 0⟩ →
        Moved r.valid.from_.time r'.valid.from_.time x.indicator.valid.from_.time
          x'.indicator.valid.from_.time)) := by
  obtain ⟨c, hc⟩ : ∃ c, Decodes ChangeForecasted.handlers (changeGroups x.code) c :=
    ⟨_, (decodes_iff _ _ _).2 rfl⟩
  have hc' : Decodes ChangeForecasted.handlers (changeGroups x'.code) c := hcode ▸ hc
  have ho : Ordered c := by
    obtain ⟨_, ho, -⟩ := Taf.change_decodes h hx hc
    exact ho
  obtain ⟨hF, -⟩ := C99_change db db' clock clock' code code' a a' r r' h h' x x' hx hx' c c hc hc'
  have hp : HasPeriod x → ∃ g, (g, 1) ∈ c := by
    rintro ⟨c1, g, h1, h2⟩
    obtain rfl := ((decodes_iff _ _ _).1 h1).trans ((decodes_iff _ _ _).1 hc).symm
    exact ⟨g, h2⟩
  have hk : x.indicator.code = x'.indicator.code := by
    have h1 := (C53_change_codes db clock code a r h x hx c hc).1
    have h2 := (C53_change_codes db' clock' code' a' r' h' x' hx' c hc').1
    rcases h1 with ⟨g, hg, f, q⟩ | ⟨g, hg, f, q⟩ | ⟨n0, n1, q⟩ <;>
      rcases h2 with ⟨g', hg', f', q'⟩ | ⟨g', hg', f', q'⟩ | ⟨n0', n1', q'⟩
    · rw [q, q', ordered_same ho hg hg']
    · rw [ordered_same ho hg hg', f'] at f; cases f
    · exact absurd hg (n0' g)
    · rw [ordered_same ho hg hg', f'] at f; cases f
    · obtain rfl := ordered_same ho hg hg'
      rcases q with ⟨v, hv, q⟩ | ⟨nv, q⟩ <;> rcases q' with ⟨v', hv', q'⟩ | ⟨nv', q'⟩
      · rw [q, q', ordered_same ho hv hv']
      · exact absurd hv (nv' v)
      · exact absurd hv' (nv v')
      · rw [q, q']
    · exact absurd hg (n0' g)
    · exact absurd hg' (n0 g')
    · exact absurd hg' (n0 g')
    · rw [q, q']
  refine ⟨⟨hF.wind rfl, hF.prevailing rfl, hF.weathers rfl, hF.clouds rfl⟩, hk, fun hsc => ⟨?_, ?_⟩⟩
  · intro hper
    obtain ⟨g, hg⟩ := hp hper
    obtain ⟨f1, f2⟩ := C43_change db clock code a r h x hx c hc
    obtain ⟨-, f2'⟩ := C43_change db' clock' code' a' r' h' x' hx' c hc'
    obtain ⟨w, hw, rfl⟩ := f1 g hg
    obtain ⟨-, -, k2, k3⟩ := f2 w hw hg
    obtain ⟨-, -, k2', k3'⟩ := f2' w hw hg
    refine ⟨takes_moved hsc k2 k2', fun hfm => takes_moved hsc (k3 hfm) (k3' fun hf => hfm ?_)⟩
    unfold IndicatorBegins at hf ⊢
    rw [hk]; exact hf
  · intro hno w rest hw he hd i i'
    have hno1 : ∀ g, (g, 1) ∉ c := fun g hg => hno ⟨c, g, hc, hg⟩
    have hg : ∃ g, (g, 0) ∈ c ∧ startsWith g py!"FM" = true ∧ g = w.text ++ rest := by
      have h1 := (C53_change_codes db clock code a r h x hx c hc).1
      rcases h1 with ⟨g, hg, f, q⟩ | ⟨g, hg, f, ⟨v, hv, -⟩ | ⟨-, q⟩⟩ | ⟨-, -, q⟩
      · rw [q] at he
        exact ⟨g, hg, f, Option.some.inj he⟩
      · exact absurd hv (hno1 v)
      · rw [q] at he
        have he := Option.some.inj he
        exfalso
        have h2 : startsWith g py!"FM" = true := by
          unfold FmGroup.text shown at he
          rcases g with _ | ⟨c1, _ | ⟨c2, g⟩⟩
          · simp at he
          · simp at he
          · simp only [List.map_cons, List.append_assoc, List.cons_append, List.nil_append, List.cons.injEq] at he
            obtain ⟨e1, e2, -⟩ := he
            have : c1 = 70 := by split at e1 <;> omega
            have : c2 = 77 := by split at e2 <;> omega
            subst c1 c2
            rfl
        rw [f] at h2
        cases h2
      · rw [q] at he; cases he
    obtain ⟨g, hg, hf, hgw⟩ := hg
    obtain ⟨w1, rest1, hw1, he1, k1, -⟩ := C45_report db clock code a r h x hx c hc g hg hf hno1
    obtain ⟨w2, rest2, hw2, he2, k2, -⟩ := C45_report db' clock' code' a' r' h' x' hx' c hc' g hg hf hno1
    obtain rfl := fm_inj hw1 hw (he1.symm.trans hgw)
    obtain rfl := fm_inj hw2 hw1 (he2.symm.trans hgw)
    exact fm_moved ((isTime_iff _).2 (Taf.time_valid h).2.1) ((isTime_iff _).2 (Taf.time_valid h').2.1) hsc k1 k2 hd i i'

/-- C105. The changes of one text read as a TAF in two months have the same texts, one by one, and the same
groups are left unparsed. C105_change tells how their periods differ. -/
theorem C105_taf_changes (db db' : Database) (clock clock' : Clock) (code : PyStr) (a a' : Args) (r r' : Taf)
    (h : Taf.new db clock code a = .ok r) (h' : Taf.new db' clock' code a' = .ok r') :
    Each (fun x x' : ChangeForecasted => x.code = x'.code ∧ x.unparsed = x'.unparsed) r.changes.list
      r'.changes.list ∧ r.unparsed = r'.unparsed := by
  obtain ⟨_, _, asg, _, -, -, l1, l2, -, -, -, -, e, -, l3, -⟩ := Taf.new_reading h
  obtain ⟨_, _, asg', _, -, -, l1', l2', -, -, -, -, e', -, l3', -⟩ := Taf.new_reading h'
  obtain rfl := same_assignment (by rfl) l1 l1' l2 l2'
  have hE : Each (fun x x' : ChangeForecasted => x.code = x'.code ∧ x.unparsed = x'.unparsed) r.changes.list
      r'.changes.list := by
    refine each_pair e e' ?_
    rintro t x x' - - - ⟨x0, n, i, s, rfl, -⟩ ⟨x0', n', i', s', rfl, -⟩
    obtain ⟨asg, p1, k1, k2, -, -, -, k3, k4, -⟩ := ChangeForecasted.new_reading n
    obtain ⟨asg', p1', k1', k2', -, -, -, k3', k4', -⟩ := ChangeForecasted.new_reading n'
    obtain rfl := firstApplicable_unique _ _ _ _ k1 k1' k2 k2'
    exact ⟨k4.trans k4'.symm, by simp only [k3, k3']⟩
  refine ⟨hE, ?_⟩
  rw [l3, l3']
  congr 1
  exact each_flatMap hE fun _ _ k => k.2

/-! ### Cases -/

/-- The last evening of February of a common and a leap year: the trend runs into March or into the 29th. -/
example : ((metarOk sampleClock py!"METAR SKBO 282330Z 13008KT 9999 SCT020 15/10 Q1023 TEMPO FM2350 TL0100 RA"
      { year := some 2023, month := some 2 }).map
      fun r => (r.time.time, r.weatherTrends.list.map fun p =>
        (p.indicator.from_.time, p.indicator.until_.time))) =
    some (⟨2023, 2, 28, 23, 30⟩, [(⟨2023, 2, 28, 23, 50⟩, ⟨2023, 3, 1, 1, 0⟩)]) ∧
  ((metarOk sampleClock py!"METAR SKBO 282330Z 13008KT 9999 SCT020 15/10 Q1023 TEMPO FM2350 TL0100 RA"
      { year := some 2024, month := some 2 }).map
      fun r => (r.time.time, r.weatherTrends.list.map fun p =>
        (p.indicator.from_.time, p.indicator.until_.time))) =
    some (⟨2024, 2, 28, 23, 30⟩, [(⟨2024, 2, 28, 23, 50⟩, ⟨2024, 2, 29, 1, 0⟩)]) := by decide +kernel

/-- Both periods and temperatures move along. -/
example : ((tafOk sampleClock py!"TAF SKBO 301100Z 3012/0112 23005KT 9999 TX21/3019Z TN10/0110Z BECMG 3014/3016 CAVOK"
      { year := some 2024, month := some 6 }).map
      fun r => (r.valid.until_.time, r.minTemperatures.list.map (·.time.time),
        r.changes.list.map fun x => x.indicator.valid.until_.time)) =
    some (⟨2024, 7, 1, 12, 0⟩, [⟨2024, 7, 1, 10, 0⟩], [⟨2024, 6, 30, 16, 0⟩]) ∧
  ((tafOk sampleClock py!"TAF SKBO 301100Z 3012/0112 23005KT 9999 TX21/3019Z TN10/0110Z BECMG 3014/3016 CAVOK"
      { year := some 2024, month := some 4 }).map
      fun r => (r.valid.until_.time, r.minTemperatures.list.map (·.time.time),
        r.changes.list.map fun x => x.indicator.valid.until_.time)) =
    some (⟨2024, 5, 1, 12, 0⟩, [⟨2024, 5, 1, 10, 0⟩], [⟨2024, 4, 30, 16, 0⟩]) := by decide +kernel

example : Sane sampleClock := fun _ => by simp [sampleClock]
example : GoodArgs { year := some 2023, month := some 2 } := by
  constructor <;> (intro x hx; cases hx; decide)

/-- An `FM` change on the 1st after a validity from the 30th: one day later in June, two days later in May. So the
day of an `FM` group has to be left in both months. -/
theorem C105_fm_false : ¬ ∀ a a' : Args, GoodArgs a → GoodArgs a' → ∀ r r' : Taf,
    tafOk sampleClock py!"TAF SKBO 301100Z 3012/0112 23005KT 9999 FM010600 CAVOK" a = some r →
    tafOk sampleClock py!"TAF SKBO 301100Z 3012/0112 23005KT 9999 FM010600 CAVOK" a' = some r' →
    Each (fun x x' : ChangeForecasted => Moved r.valid.from_.time r'.valid.from_.time
      x.indicator.valid.from_.time x'.indicator.valid.from_.time) r.changes.list r'.changes.list := by
  intro H
  have h1 : (tafOk sampleClock py!"TAF SKBO 301100Z 3012/0112 23005KT 9999 FM010600 CAVOK"
      { year := some 2024, month := some 6 }).map (fun r => (r.valid.from_.time,
        r.changes.list.map fun x => x.indicator.valid.from_.time)) =
      some (⟨2024, 6, 30, 12, 0⟩, [⟨2024, 7, 1, 6, 0⟩]) := by decide +kernel
  have h2 : (tafOk sampleClock py!"TAF SKBO 301100Z 3012/0112 23005KT 9999 FM010600 CAVOK"
      { year := some 2024, month := some 5 }).map (fun r => (r.valid.from_.time,
        r.changes.list.map fun x => x.indicator.valid.from_.time)) =
      some (⟨2024, 5, 30, 12, 0⟩, [⟨2024, 6, 1, 6, 0⟩]) := by decide +kernel
  rw [Option.map_eq_some_iff] at h1 h2
  obtain ⟨r, k1, k2⟩ := h1
  obtain ⟨r', k1', k2'⟩ := h2
  have g : ∀ m : Int, 1 ≤ m ∧ m ≤ 12 → GoodArgs { year := some 2024, month := some m } := by
    intro m hm
    refine ⟨fun x hx => ?_, fun x hx => ?_⟩ <;> cases hx
    · decide
    · exact hm
  have h := H _ _ (g 6 (by decide)) (g 5 (by decide)) r r' k1 k1'
  simp only [Prod.mk.injEq] at k2 k2'
  rw [k2.1, k2'.1] at h
  replace k2 := k2.2
  replace k2' := k2'.2
  generalize r.changes.list = l, r'.changes.list = l' at h k2 k2'
  cases h with
  | nil => cases k2
  | cons h _ =>
    simp only [List.map_cons, List.cons.injEq] at k2 k2'
    rw [k2.1, k2'.1] at h
    obtain ⟨n, ⟨-, e⟩, -, e'⟩ := h
    have m1 : minutes ⟨2024, 7, 1, 6, 0⟩ = minutes ⟨2024, 6, 30, 12, 0⟩ + 1080 := by decide +kernel
    have m2 : minutes ⟨2024, 6, 1, 6, 0⟩ = minutes ⟨2024, 5, 30, 12, 0⟩ + 2520 := by decide +kernel
    omega

end Verif.Props
