import Verif.Lemmas.Cross
import Verif.Spec.Both
import Verif.Props.Ambiguity
import Verif.Props.Alike
import Verif.Props.Account
import Verif.Props.Report
import Verif.Props.Sections
import Verif.Props.TafSections
import Verif.Props.UnknownWord
import Verif.Props.Exceptions

/-
C108: METAR and TAF are told apart by their groups, and a text that is both says the same in both.
-/

namespace Verif.Props
open Verif Spec

theorem left_of {σ : Type} {hs : List (Handler σ)} {gs un : List PyStr} (hl : Leaves hs gs un) {g : PyStr} (hg : g ∈ gs)
    (h : ∀ c i, Decodes hs gs c → (g, i) ∉ c) : g ∈ un := by
  have hd : Decodes hs gs _ := (decodes_iff _ _ _).2 rfl
  have := (decodes_perm hd hl).mem_iff.1 hg
  rcases List.mem_append.1 this with h1 | h1
  · obtain ⟨⟨g', i⟩, hm, rfl⟩ := List.mem_map.1 h1
    exact absurd hm (h _ i hd)
  · exact h1

theorem all_ranked (k : MetarKind) : k ∈ metarRanked := by cases k <;> decide

theorem tafOnly_metar {w : PyStr} (h : TafOnly w) (hn : 10 ∉ w) (k : MetarKind) : ¬ Admits k.pattern w := fun hw => by
  obtain ⟨k', hk', hw'⟩ := h
  exact crossIn_sound cross_tafOnly (all_ranked k) hk' hn hw hw'

theorem tafWind_metar {w : PyStr} (h : Admits TafRegExp.WIND w) (hn : 10 ∉ w) : Admits MetarKind.wind.pattern w := by
  obtain ⟨m, hm⟩ := h
  have := ((C107_wind_groups w hn).1 (by rw [hm]; rfl)).1
  exact admits_of this

/-- The METAR kind with the pattern of a kind of a TAF, or one that accepts more. -/
def metarTwin : TafKind → Option MetarKind
  | .type => some .type | .station => some .station | .time => some .time | .wind => some .wind
  | .weather => some .weather | .cloud => some .cloud
  | _ => none

theorem twin_admits {k' : TafKind} {k : MetarKind} (e : metarTwin k' = some k) {w : PyStr} (hn : 10 ∉ w)
    (h : Admits k'.pattern w) : Admits k.pattern w := by
  cases k' <;> cases e <;> first | exact h | exact tafWind_metar h hn

/-- No kind of a METAR but itself shares words with such a kind. -/
theorem twin_only {k : MetarKind} (hk : k ∈ [MetarKind.variation, .range, .shear, .sea, .runway, .temperatures, .pressure])
    {k' : TafKind} {t : MetarKind} (e : metarTwin k' = some t) {w : PyStr} (hn : 10 ∉ w) (hw : Admits k.pattern w)
    (hw' : Admits k'.pattern w) : False := by
  have ht := twin_admits e hn hw'
  simp only [List.mem_cons, List.not_mem_nil, or_false] at hk
  rcases (C79_metar k t w hn).1 hw ht with rfl | h | h
  · rcases hk with rfl | rfl | rfl | rfl | rfl | rfl | rfl <;> cases k' <;> cases e
  · rcases hk with rfl | rfl | rfl | rfl | rfl | rfl | rfl <;> cases h
  · rcases hk with rfl | rfl | rfl | rfl | rfl | rfl | rfl <;> cases h <;> cases k' <;> cases e

theorem metarOnly_kind {w : PyStr} (h : MetarOnly w) :
    ∃ k ∈ [MetarKind.variation, .range, .shear, .sea, .runway, .temperatures, .pressure], Admits k.pattern w := by
  cases h with
  | @plain k hk h =>
    refine ⟨k, ?_, h⟩
    simp only [List.mem_cons, List.not_mem_nil, or_false] at hk ⊢
    rcases hk with h | h | h | h | h <;> simp [h]
  | temperatures h _ => exact ⟨_, by simp, h⟩
  | pressure h _ => exact ⟨_, by simp, h⟩

theorem metarOnly_taf {w : PyStr} (h : MetarOnly w) (hn : 10 ∉ w) (k' : TafKind) : ¬ Admits k'.pattern w := fun hw' => by
  obtain ⟨k, hk, hw⟩ := metarOnly_kind h
  have hk2 : k ∈ [MetarKind.type, .visibility, .variation, .range, .temperatures, .pressure, .shear, .sea, .runway] := by
    simp only [List.mem_cons, List.not_mem_nil, or_false] at hk ⊢
    rcases hk with h | h | h | h | h | h | h <;> simp [h]
  cases k' with
  | type => exact twin_only hk (k' := .type) rfl hn hw hw'
  | station => exact twin_only hk (k' := .station) rfl hn hw hw'
  | time => exact twin_only hk (k' := .time) rfl hn hw hw'
  | wind => exact twin_only hk (k' := .wind) rfl hn hw hw'
  | weather => exact twin_only hk (k' := .weather) rfl hn hw hw'
  | cloud => exact twin_only hk (k' := .cloud) rfl hn hw hw'
  | amendment => exact crossIn_sound cross_amendment hk2 (k' := .amendment) (by decide) hn hw hw'
  | missing => exact crossIn_sound cross_amendment hk2 (k' := .missing) (by decide) hn hw hw'
  | valid => exact crossIn_sound cross_tafOnly (all_ranked k) (k' := .valid) (by decide) hn hw hw'
  | cancelled => exact crossIn_sound cross_tafOnly (all_ranked k) (k' := .cancelled) (by decide) hn hw hw'
  | temperature => exact crossIn_sound cross_tafOnly (all_ranked k) (k' := .temperature) (by decide) hn hw hw'
  | visibility =>
    cases h with
    | plain hp h => exact crossIn_sound cross_visibility hp (k' := .visibility) (by decide) hn h hw'
    | temperatures h hh =>
      obtain ⟨ks, hks, hs⟩ := Admits.both temperatures_visibility h hw' hn
      obtain ⟨k, hk, c, t, rfl, hc⟩ := opening_head hks hs
      rw [List.mem_singleton] at hk
      subst hk
      exact hh (congrArg some (eq_of_one hc))
    | pressure h hh =>
      obtain ⟨ks, hks, hs⟩ := Admits.both pressure_visibility h hw' hn
      obtain ⟨k, hk, c, t, rfl, hc⟩ := opening_head hks hs
      rw [List.mem_singleton] at hk
      subst hk
      rcases hh with hh | hh <;> cases hh <;> exact absurd hc (by decide)

theorem metarOnly_change {w : PyStr} (h : MetarOnly w) (hn : 10 ∉ w) (k' : ChangeGroupKind) : ¬ Admits k'.pattern w :=
  fun hw' => by
  cases k' with
  | valid => exact metarOnly_taf h hn .valid hw'
  | wind => exact metarOnly_taf h hn .wind hw'
  | weather => exact metarOnly_taf h hn .weather hw'
  | cloud => exact metarOnly_taf h hn .cloud hw'
  | change =>
    obtain ⟨k, hk, hw⟩ := metarOnly_kind h
    refine crossRE_sound cross_change (p := TafRegExp.CHANGE_INDICATOR) (q := k.pattern) (by simp) ?_ hn hw' hw
    simp only [List.mem_cons, List.not_mem_nil, or_false] at hk
    rcases hk with rfl | rfl | rfl | rfl | rfl | rfl | rfl <;> simp [MetarKind.pattern]
  | visibility =>
    have hv : Admits MetarKind.visibility.pattern w := hw'
    have key : ∀ k, Admits (MetarKind.pattern k) w → k ≠ .visibility →
        SharedMetar k .visibility w ∨ SharedMetar .visibility k w := by
      intro k hk hne
      rcases (C79_metar k .visibility w hn).1 hk hv with h | h
      · exact absurd h hne
      · exact h
    cases h with
    | plain hp h =>
      simp only [List.mem_cons, List.not_mem_nil, or_false] at hp
      rcases hp with rfl | rfl | rfl | rfl | rfl <;> rcases key _ h (by decide) with h | h <;> cases h
    | temperatures h _ => rcases key _ h (by decide) with h | h <;> cases h
    | pressure h hh =>
      rcases key _ h (by decide) with h | h <;> cases h
      rename_i hb
      rcases hb with ⟨-, hb⟩ | rfl
      · cases w with
        | nil => simp at hh
        | cons c t =>
          have := hb c (by simp)
          rcases hh with hh | hh <;> cases hh <;> exact absurd this (by decide)
      · rcases hh with hh | hh <;> cases hh

theorem tafOnly_trend {w : PyStr} (h : TafOnly w) (hn : 10 ∉ w) (k' : TrendGroupKind) : ¬ Admits k'.pattern w :=
  fun hw' => by
  have key : ∀ r ∈ [MetarRegExp.CHANGE_INDICATOR, MetarRegExp.TREND_TIME_PERIOD], ¬ Admits r w := fun r hr hw => by
    obtain ⟨k, hk, hw2⟩ := h
    refine crossRE_sound cross_trend hr (q := k.pattern) ?_ hn hw hw2
    simp only [List.mem_cons, List.not_mem_nil, or_false] at hk
    rcases hk with rfl | rfl | rfl <;> simp [TafKind.pattern]
  cases k' with
  | change => exact key _ (by simp [TrendGroupKind.pattern]) hw'
  | period => exact key _ (by simp [TrendGroupKind.pattern]) hw'
  | wind => exact tafOnly_metar h hn .wind hw'
  | visibility => exact tafOnly_metar h hn .visibility hw'
  | weather => exact tafOnly_metar h hn .weather hw'
  | cloud => exact tafOnly_metar h hn .cloud hw'

/-- C108. The groups that only a TAF has are left over wherever they stand in a METAR, so that a strict reading fails. -/
theorem C108_metar_left (db : Database) (clock : Clock) (code : PyStr) (a : Args) (r : Metar)
    (h : Metar.new db clock code a = .ok r) :
    (∀ g ∈ metarGroups r.body, TafOnly g → g ∈ r.unparsed) ∧
    ∀ p ∈ r.weatherTrends.list, ∀ text, p.code = some text → ∀ g ∈ bodyGroups text, TafOnly g → g ∈ r.unparsed := by
  obtain ⟨⟨un, hl, e⟩, ht⟩ := C08_metar_unparsed db clock code a r h
  refine ⟨fun g hg ho => ?_, fun p hp text hx g hg ho => ?_⟩
  · rw [e]
    refine List.mem_append_left _ (left_of hl hg fun c i hc hm => ?_)
    obtain ⟨t, -, -, -, hn⟩ := Metar.new_decodes h hc
    obtain ⟨k, -, hk⟩ := taken_kind (ks := metarOrder) (p := MetarKind.pattern) rfl hc hm
    exact tafOnly_metar ho (hn g i hm) k hk
  · obtain ⟨text', e', hl⟩ := ht p hp
    rw [hx] at e'
    cases e'
    rw [e]
    refine List.mem_append_right _ (List.mem_flatMap.2 ⟨p, hp, left_of hl hg fun c i hc hm => ?_⟩)
    obtain ⟨ind, p1, -, -, -, -, -, -, hn⟩ := Metar.trend_decodes h hp hx hc
    obtain ⟨k, -, hk⟩ := taken_kind (ks := trendOrder) (p := TrendGroupKind.pattern) rfl hc hm
    exact tafOnly_trend ho (hn g i hm) k hk

/-- C108. The groups that only a METAR has are left over wherever they stand in a TAF. -/
theorem C108_taf_left (db : Database) (clock : Clock) (code : PyStr) (a : Args) (r : Taf)
    (h : Taf.new db clock code a = .ok r) :
    (∀ g ∈ bodyGroups r.body, MetarOnly g → g ∈ r.unparsed) ∧
    ∀ x ∈ r.changes.list, ∀ g ∈ changeGroups x.code, MetarOnly g → g ∈ r.unparsed := by
  obtain ⟨⟨un, hl, e⟩, ht⟩ := C08_taf_unparsed db clock code a r h
  refine ⟨fun g hg ho => ?_, fun x hp g hg ho => ?_⟩
  · rw [e]
    refine List.mem_append_left _ (left_of hl hg fun c i hc hm => ?_)
    obtain ⟨t, v, -, -, -, -, hn⟩ := Taf.new_decodes h hc
    obtain ⟨k, -, hk⟩ := taken_kind (ks := tafOrder) (p := TafKind.pattern) rfl hc hm
    exact metarOnly_taf ho (hn g i hm) k hk
  · rw [e]
    refine List.mem_append_right _ (List.mem_flatMap.2 ⟨x, hp, left_of (ht x hp) hg fun c i hc hm => ?_⟩)
    obtain ⟨p1, -, -, -, -, -, hn⟩ := Taf.change_decodes h hp hc
    obtain ⟨k, -, hk⟩ := taken_kind (ks := changeOrder) (p := ChangeGroupKind.pattern) rfl hc hm
    exact metarOnly_change ho (hn g i hm) k hk

/-! ### A text read as both -/

/-- A METAR position and the TAF position of the same group. -/
def SamePlace (i j : Nat) : Prop :=
  (i, j) ∈ [(0, 0), (1, 2), (2, 3), (3, 4), (4, 7), (6, 8)] ∨ (11 ≤ i ∧ i ≤ 13 ∧ 9 ≤ j ∧ j ≤ 11) ∨
    (14 ≤ i ∧ i ≤ 17 ∧ 12 ≤ j ∧ j ≤ 15)

theorem ordered_zip {c c' : List (PyStr × Nat)} (hp : c.Pairwise fun x y => x.2 < y.2)
    (hp' : c'.Pairwise fun x y => x.2 < y.2) {x y : (PyStr × Nat) × PyStr × Nat} (hx : x ∈ c.zip c') (hy : y ∈ c.zip c') :
    x = y ∨ (x.1.2 < y.1.2 ∧ x.2.2 < y.2.2) ∨ (y.1.2 < x.1.2 ∧ y.2.2 < x.2.2) := by
  obtain ⟨n, hn⟩ := List.mem_iff_getElem?.1 hx
  obtain ⟨m, hm⟩ := List.mem_iff_getElem?.1 hy
  rw [List.getElem?_zip_eq_some] at hn hm
  have key : ∀ {c : List (PyStr × Nat)}, c.Pairwise (fun x y => x.2 < y.2) → ∀ {n m : Nat} {x y}, c[n]? = some x →
      c[m]? = some y → n < m → x.2 < y.2 := by
    intro c hc n m x y h1 h2 hnm
    obtain ⟨l1, rfl⟩ := List.getElem?_eq_some_iff.1 h1
    obtain ⟨l2, rfl⟩ := List.getElem?_eq_some_iff.1 h2
    exact List.pairwise_iff_getElem.1 hc n m l1 l2 hnm
  rcases Nat.lt_trichotomy n m with h | h | h
  · exact .inr (.inl ⟨key hp hn.1 hm.1 h, key hp' hn.2 hm.2 h⟩)
  · subst h
    rw [hn.1, hn.2] at hm
    exact .inl (Prod.ext (Option.some.inj hm.1) (Option.some.inj hm.2))
  · exact .inr (.inr ⟨key hp hm.1 hn.1 h, key hp' hm.2 hn.2 h⟩)

theorem metar_apart {k k' : MetarKind} {w : PyStr} (hn : 10 ∉ w) (hk : Admits k.pattern w) (hk' : Admits k'.pattern w)
    (hne : k ≠ k') (h1 : k ≠ .station) (h2 : k' ≠ .station) (h3 : k = .weather ∨ k = .cloud ∨ k = .time ∨ k = .wind ∨ k = .type) :
    False := by
  rcases (C79_metar k k' w hn).1 hk hk' with h | h | h
  · exact hne h
  · rcases h3 with rfl | rfl | rfl | rfl | rfl <;> cases h
  · rcases h3 with rfl | rfl | rfl | rfl | rfl <;> cases h <;> exact h2 rfl

/-- The positions of a kind of group in a METAR and in a TAF. -/
def metarSpan : MetarKind → Nat × Nat
  | .type => (0, 0) | .station => (1, 1) | .time => (2, 2) | .modifier => (3, 3) | .wind => (4, 4)
  | .variation => (5, 5) | .visibility => (6, 6) | .minimum => (7, 7) | .range => (8, 10) | .weather => (11, 13)
  | .cloud => (14, 17) | .temperatures => (18, 18) | .pressure => (19, 20) | .recent => (21, 21) | .shear => (22, 24)
  | .sea => (25, 25) | .runway => (26, 26)

def tafSpan : TafKind → Nat × Nat
  | .type => (0, 0) | .amendment => (1, 1) | .station => (2, 2) | .time => (3, 3) | .missing => (4, 4)
  | .valid => (5, 5) | .cancelled => (6, 6) | .wind => (7, 7) | .visibility => (8, 8) | .weather => (9, 11)
  | .cloud => (12, 15) | .temperature => (16, 19)

theorem metar_span {i : Nat} {k : MetarKind} (h : metarOrder[i]? = some k) : (metarSpan k).1 ≤ i ∧ i ≤ (metarSpan k).2 := by
  have key : ∀ i < 27, (metarOrder[i]?).all (fun k => decide ((metarSpan k).1 ≤ i ∧ i ≤ (metarSpan k).2)) = true := by decide
  obtain ⟨hl, -⟩ := List.getElem?_eq_some_iff.1 h
  have := key i hl
  rw [h] at this
  simpa using this

theorem taf_span {i : Nat} {k : TafKind} (h : tafOrder[i]? = some k) : (tafSpan k).1 ≤ i ∧ i ≤ (tafSpan k).2 := by
  have key : ∀ i < 20, (tafOrder[i]?).all (fun k => decide ((tafSpan k).1 ≤ i ∧ i ≤ (tafSpan k).2)) = true := by decide
  obtain ⟨hl, -⟩ := List.getElem?_eq_some_iff.1 h
  have := key i hl
  rw [h] at this
  simpa using this

theorem station_places {k' : TafKind} {w : PyStr} (hn : 10 ∉ w) (h : Admits MetarRegExp.STATION w)
    (h' : Admits k'.pattern w) : k' = .station ∨ 8 ≤ (tafSpan k').1 := by
  rcases (C79_taf k' .station).1 ⟨w, hn, h', h⟩ with h | ⟨u, h⟩ | ⟨u, h⟩
  · exact .inl h
  · simp [sharedTaf] at h
  · simp only [sharedTaf, List.mem_cons, Prod.mk.injEq, List.not_mem_nil, or_false, false_and, reduceCtorEq, true_and, false_or] at h
    rcases h with ⟨rfl, -⟩ | ⟨rfl, -⟩ | ⟨rfl, -⟩ <;> exact .inr (by decide)

theorem visibility_places {k' : TafKind} {w : PyStr} (hn : 10 ∉ w) (h : Admits MetarKind.visibility.pattern w)
    (h' : Admits k'.pattern w) : k' = .station ∨ k' = .visibility := by
  cases k' with
  | station => exact .inl rfl
  | visibility => exact .inr rfl
  | type => exact (metar_apart (k := .type) hn h' h (by decide) (by decide) (by decide) (by decide)).elim
  | time => exact (metar_apart (k := .time) hn h' h (by decide) (by decide) (by decide) (by decide)).elim
  | wind => exact (metar_apart (k := .wind) hn (tafWind_metar h' hn) h (by decide) (by decide) (by decide) (by decide)).elim
  | weather => exact (metar_apart (k := .weather) hn h' h (by decide) (by decide) (by decide) (by decide)).elim
  | cloud => exact (metar_apart (k := .cloud) hn h' h (by decide) (by decide) (by decide) (by decide)).elim
  | amendment => exact (crossIn_sound cross_amendment (k := .visibility) (k' := .amendment) (by decide) (by decide) hn h h').elim
  | missing => exact (crossIn_sound cross_amendment (k := .visibility) (k' := .missing) (by decide) (by decide) hn h h').elim
  | valid => exact (tafOnly_metar ⟨.valid, by decide, h'⟩ hn _ h).elim
  | cancelled => exact (tafOnly_metar ⟨.cancelled, by decide, h'⟩ hn _ h).elim
  | temperature => exact (tafOnly_metar ⟨.temperature, by decide, h'⟩ hn _ h).elim

/-- Groups before the visibility and behind the station. -/
theorem middle_places {k : MetarKind} {k' : TafKind} {w : PyStr} (hn : 10 ∉ w) (h : Admits k.pattern w)
    (h' : Admits k'.pattern w) (h1 : 1 < (metarSpan k).2) (h2 : (metarSpan k).1 < 6) (h3 : 2 < (tafSpan k').2)
    (h4 : (tafSpan k').1 < 8) :
    (k = .time ∧ k' = .time) ∨ (k = .modifier ∧ k' = .missing) ∨ (k = .wind ∧ k' = .wind) := by
  have only : k' ∉ [TafKind.valid, .cancelled, .temperature] := fun hk => tafOnly_metar ⟨k', hk, h'⟩ hn _ h
  have time : k' = .time → k = .time := by
    rintro rfl
    refine Decidable.byContradiction fun hk => ?_
    refine metar_apart (k := .time) hn h' h (fun e => hk e.symm) (by decide) ?_ (by decide)
    rintro rfl
    exact absurd h1 (by decide)
  have wind : k' = .wind → k = .wind := by
    rintro rfl
    refine Decidable.byContradiction fun hk => ?_
    refine metar_apart (k := .wind) hn (tafWind_metar h' hn) h (fun e => hk e.symm) (by decide) ?_ (by decide)
    rintro rfl
    exact absurd h1 (by decide)
  cases k' <;> first
    | exact absurd h3 (by decide)
    | exact absurd h4 (by decide)
    | exact (only (by decide)).elim
    | skip
  · exact .inl ⟨time rfl, rfl⟩
  · cases k <;> first
      | exact absurd h1 (by decide)
      | exact absurd h2 (by decide)
      | exact .inr (.inl ⟨rfl, rfl⟩)
      | exact (crossIn_sound cross_missing (k' := .missing) (by decide) (by decide) hn h h').elim
  · exact .inr (.inr ⟨wind rfl, rfl⟩)

/-- Groups behind the visibility. -/
theorem late_places {k : MetarKind} {k' : TafKind} {w : PyStr} (hn : 10 ∉ w) (h : Admits k.pattern w)
    (h' : Admits k'.pattern w) (h1 : 6 < (metarSpan k).2) (h2 : 8 < (tafSpan k').2) :
    (k = .weather ∧ k' = .weather) ∨ (k = .cloud ∧ k' = .cloud) := by
  have st : k ≠ .station := by rintro rfl; exact absurd h1 (by decide)
  have weather : k' = .weather → k = .weather := by
    rintro rfl
    refine Decidable.byContradiction fun hk => ?_
    exact metar_apart (k := .weather) hn h' h (fun e => hk e.symm) (by decide) st (by decide)
  have cloud : k' = .cloud → k = .cloud := by
    rintro rfl
    refine Decidable.byContradiction fun hk => ?_
    exact metar_apart (k := .cloud) hn h' h (fun e => hk e.symm) (by decide) st (by decide)
  cases k' <;> first
    | exact absurd h2 (by decide)
    | exact .inl ⟨weather rfl, rfl⟩
    | exact .inr ⟨cloud rfl, rfl⟩
    | exact (tafOnly_metar ⟨.temperature, by decide, h'⟩ hn _ h).elim

theorem places {σ σ' : Type} {hs : List (Handler σ)} {hs' : List (Handler σ')}
    (e : hs.map Handler.regexp = metarOrder.map MetarKind.pattern)
    (e' : hs'.map Handler.regexp = tafOrder.map TafKind.pattern) {gs : List PyStr} {c c' : List (PyStr × Nat)}
    (hc : Decodes hs gs c) (hc' : Decodes hs' gs c') (hn : ∀ g ∈ gs, 10 ∉ g) (hm : c.map (·.1) = gs)
    (hm' : c'.map (·.1) = gs) {s v : PyStr} (hs1 : (s, 1) ∈ c) (hv1 : (v, 6) ∈ c) :
    ∀ x ∈ c.zip c', x.1.1 = x.2.1 ∧ SamePlace x.1.2 x.2.2 := by
  have hl : c.length = c'.length := by rw [← List.length_map (f := (·.1)), hm, ← hm', List.length_map]
  have same : ∀ x ∈ c.zip c', x.1.1 = x.2.1 := by
    intro x hx
    obtain ⟨n, hx⟩ := List.mem_iff_getElem?.1 hx
    rw [List.getElem?_zip_eq_some] at hx
    have h1 := congrArg (·[n]?) (hm.trans hm'.symm)
    simp only [List.getElem?_map, hx.1, hx.2, Option.map_some, Option.some.injEq] at h1
    exact h1
  have full : ∀ y ∈ c, ∃ z, (y, z) ∈ c.zip c' := by
    intro y hy
    obtain ⟨n, hy⟩ := List.mem_iff_getElem?.1 hy
    obtain ⟨l, -⟩ := List.getElem?_eq_some_iff.1 hy
    refine ⟨c'[n]'(hl ▸ l), List.mem_iff_getElem?.2 ⟨n, ?_⟩⟩
    rw [List.getElem?_zip_eq_some]
    exact ⟨hy, List.getElem?_eq_getElem _⟩
  have trich := @ordered_zip c c' (decodes_order hc).1 (decodes_order hc').1
  have kinds : ∀ x ∈ c.zip c', ∃ k k', metarOrder[x.1.2]? = some k ∧ tafOrder[x.2.2]? = some k' ∧
      Admits k.pattern x.1.1 ∧ Admits k'.pattern x.1.1 ∧ 10 ∉ x.1.1 := by
    intro x hx
    have h1 := (List.of_mem_zip (a := x.1) (b := x.2) hx).1
    have h2 := (List.of_mem_zip (a := x.1) (b := x.2) hx).2
    obtain ⟨k, hi, hk⟩ := taken_kind (g := x.1.1) (i := x.1.2) e hc h1
    obtain ⟨k', hi', hk'⟩ := taken_kind (g := x.2.1) (i := x.2.2) e' hc' h2
    exact ⟨k, k', hi, hi', hk, same x hx ▸ hk', hn _ (hm ▸ List.mem_map_of_mem h1)⟩
  obtain ⟨⟨s', js⟩, hsx⟩ := full _ hs1
  obtain ⟨⟨v', jv⟩, hvx⟩ := full _ hv1
  obtain ⟨hjs, hjv⟩ : js = 2 ∧ jv = 8 := by
    obtain ⟨k, k', hi, hj, hk, hk', h10⟩ := kinds _ hsx
    obtain ⟨q, q', hi2, hj2, hq, hq', h10'⟩ := kinds _ hvx
    cases hi
    cases hi2
    have a := taf_span hj
    have b := taf_span hj2
    have ho := trich hsx hvx
    simp only [Prod.mk.injEq, Nat.reduceEqDiff, and_false, false_and, false_or, Nat.reduceLT, true_and, or_false] at ho a b
    rcases station_places h10 hk hk' with rfl | hS <;> rcases visibility_places h10' hq hq' with rfl | rfl <;>
      simp only [tafSpan] at * <;> omega
  subst hjs
  subst hjv
  refine fun x hx => ⟨same x hx, ?_⟩
  obtain ⟨k, k', hi, hj, hk, hk', h10⟩ := kinds x hx
  have ai := metar_span hi
  have aj := taf_span hj
  rcases trich hx hsx with rfl | ⟨h1, h2⟩ | ⟨h1, h2⟩
  · exact .inl (by simp)
  · simp only at h1 h2
    have : x.1.2 = 0 := by omega
    have hkt : k = .type := by
      rw [this] at hi
      exact (Option.some.inj hi).symm
    subst hkt
    have : x.2.2 = 0 := by
      refine Decidable.byContradiction fun h => ?_
      have e1 : x.2.2 = 1 := by omega
      rw [e1] at hj
      have := (Option.some.inj hj).symm
      subst this
      exact crossIn_sound cross_amendment (k := .type) (k' := .amendment) (by decide) (by decide) h10 hk hk'
    left
    simp [*]
  · simp only at h1 h2
    rcases trich hx hvx with rfl | ⟨h3, h4⟩ | ⟨h3, h4⟩
    · exact .inl (by simp)
    · simp only at h3 h4
      rcases middle_places h10 hk hk' (by omega) (by omega) (by omega) (by omega) with ⟨rfl, rfl⟩ | ⟨rfl, rfl⟩ | ⟨rfl, rfl⟩
      all_goals
        simp only [metarSpan, tafSpan] at ai aj
        left
        simp only [List.mem_cons, Prod.mk.injEq, List.not_mem_nil, or_false]
        omega
    · simp only at h3 h4
      rcases late_places h10 hk hk' (by omega) (by omega) with ⟨rfl, rfl⟩ | ⟨rfl, rfl⟩
      all_goals
        simp only [metarSpan, tafSpan] at ai aj
      · exact .inr (.inl ⟨ai.1, ai.2, aj.1, aj.2⟩)
      · exact .inr (.inr ⟨ai.1, ai.2, aj.1, aj.2⟩)

theorem SamePlace.cases {i j : Nat} (h : SamePlace i j) :
    (i = 0 ∧ j = 0) ∨ (i = 1 ∧ j = 2) ∨ (i = 2 ∧ j = 3) ∨ (i = 3 ∧ j = 4) ∨ (i = 4 ∧ j = 7) ∨ (i = 6 ∧ j = 8) ∨
    (11 ≤ i ∧ i ≤ 13 ∧ 9 ≤ j ∧ j ≤ 11) ∨ (14 ≤ i ∧ i ≤ 17 ∧ 12 ≤ j ∧ j ≤ 15) := by
  simpa only [SamePlace, List.mem_cons, Prod.mk.injEq, List.not_mem_nil, or_false, or_assoc] using h

theorem taken_zip {lo hi lo' hi' : Nat} {c c' : List (PyStr × Nat)} (hl : c.length = c'.length)
    (h : ∀ x ∈ c.zip c', x.1.1 = x.2.1 ∧ ((lo ≤ x.1.2 ∧ x.1.2 ≤ hi) ↔ (lo' ≤ x.2.2 ∧ x.2.2 ≤ hi'))) :
    taken c lo hi = taken c' lo' hi' := by
  induction c generalizing c' with
  | nil =>
    cases c' with
    | nil => rfl
    | cons _ _ => cases hl
  | cons x c ih =>
    cases c' with
    | nil => cases hl
    | cons y c' =>
      have h1 := h (x, y) (by simp)
      have h2 := ih (Nat.succ.inj hl) fun z hz => h z (by simp [hz])
      unfold taken at h2 ⊢
      simp only at h1
      by_cases hx : lo ≤ x.2 ∧ x.2 ≤ hi
      · have hy := h1.2.1 hx
        rw [List.filter_cons_of_pos (by simpa using hx), List.filter_cons_of_pos (by simpa using hy), List.map_cons,
          List.map_cons, h1.1, h2]
      · have hy := fun hy => hx (h1.2.2 hy)
        rw [List.filter_cons_of_neg (by simpa using hx), List.filter_cons_of_neg (by simpa using hy), h2]

theorem taken_none {lo hi : Nat} {c : List (PyStr × Nat)} (h : ∀ x ∈ c, ¬ (lo ≤ x.2 ∧ x.2 ≤ hi)) : taken c lo hi = [] := by
  unfold taken
  rw [List.filter_eq_nil_iff.2, List.map_nil]
  intro x hx
  simpa using h x hx

theorem codeFrom_none {c : List (PyStr × Nat)} {i : Nat} {d x : Option PyStr} (h : CodeFrom c i d x)
    (hn : taken c i i = []) : x = d := by
  rcases h with ⟨g, hg, -⟩ | ⟨-, h⟩
  · have := mem_taken.1 hg
    rw [hn] at this
    cases this
  · exact h

theorem codeFrom_same {c c' : List (PyStr × Nat)} {i j : Nat} {d x x' : Option PyStr} (ho : Ordered c) (h : CodeFrom c i d x)
    (h' : CodeFrom c' j d x') (e : taken c i i = taken c' j j) : x = x' := by
  rcases h with ⟨g, hg, rfl⟩ | ⟨hno, rfl⟩ <;> rcases h' with ⟨g', hg', rfl⟩ | ⟨hno', rfl⟩
  · rw [ordered_inj ho hg (mem_taken.2 (e ▸ mem_taken.1 hg'))]
  · exact absurd (mem_taken.2 (e ▸ mem_taken.1 hg)) (hno' g)
  · exact absurd (mem_taken.2 (e ▸ mem_taken.1 hg')) (hno g')
  · rfl

theorem codeFrom_some {c : List (PyStr × Nat)} {i : Nat} {x : Option PyStr} (h : CodeFrom c i none x) (hx : x ≠ none) :
    ∃ g, (g, i) ∈ c := by
  rcases h with ⟨g, hg, -⟩ | ⟨-, h⟩
  · exact ⟨g, hg⟩
  · exact absurd h hx

theorem all_decoded {σ : Type} {hs : List (Handler σ)} {gs : List PyStr} {c : List (PyStr × Nat)} (hd : Decodes hs gs c)
    (hl : Leaves hs gs []) : c.map (·.1) = gs := by
  have h1 := decodes_perm hd hl
  rw [List.append_nil] at h1
  exact (kept_sublist hd).eq_of_length h1.length_eq.symm

/-- C108. A METAR and a TAF without unparsed groups, whose bodies have the same groups, among them a station and a
visibility, say the same, and nothing in them is particular to one kind of report. The times are equal when the
same year and month are in use. -/
theorem C108_both (db : Database) (clock clock' : Clock) (code code' : PyStr) (a a' : Args) (r : Metar) (r' : Taf)
    (h : Metar.new db clock code a = .ok r) (h' : Taf.new db clock' code' a' = .ok r')
    (hg : metarGroups r.body = bodyGroups r'.body) (hu : r.unparsed = []) (hu' : r'.unparsed = [])
    (hs : r.station.code ≠ none) (hv : r.core.prevailing.code ≠ none) :
    SameContent r r' ∧
    (r.time.code ≠ none → a.year.getD (clock 2).year = a'.year.getD (clock' 1).year →
      a.month.getD (clock 2).month = a'.month.getD (clock' 1).month → r.time = r'.time) := by
  obtain ⟨c, hc⟩ : ∃ c, Decodes (Metar.handlers db (clock 2) a) (metarGroups r.body) c := ⟨_, (decodes_iff _ _ _).2 rfl⟩
  obtain ⟨c', hc'⟩ : ∃ c, Decodes (Taf.handlers db (clock' 1) a') (bodyGroups r'.body) c := ⟨_, (decodes_iff _ _ _).2 rfl⟩
  obtain ⟨⟨un, hl, e⟩, -⟩ := C08_metar_unparsed db clock code a r h
  obtain ⟨⟨un', hl', e'⟩, -⟩ := C08_taf_unparsed db clock' code' a' r' h'
  rw [hu] at e
  rw [hu'] at e'
  obtain ⟨rfl, -⟩ := List.append_eq_nil_iff.1 e.symm
  obtain ⟨rfl, -⟩ := List.append_eq_nil_iff.1 e'.symm
  have hm := all_decoded hc hl
  have hm' := all_decoded hc' hl'
  obtain ⟨_, -, ho, -, hn⟩ := Metar.new_decodes h hc
  obtain ⟨_, _, -, -, ho', -, -⟩ := Taf.new_decodes h' hc'
  obtain ⟨k0, k1, k2, k3, k4, k5, k6, k7, k8, k11, k14, k18, k19, k21, k22, k25, k26⟩ :=
    C53_metar_codes db clock code a r h c hc
  obtain ⟨t0, t1, t2, t3, t4, t5, t6, t7, t8, t9, t12, tx, tn⟩ := C53_taf_codes db clock' code' a' r' h' c' hc'
  obtain ⟨s, hs1⟩ := codeFrom_some k1 hs
  obtain ⟨v, hv1⟩ := codeFrom_some k6 hv
  have hp := places (σ := Metar) (σ' := Taf) (hs := Metar.handlers db (clock 2) a) (hs' := Taf.handlers db (clock' 1) a')
    rfl rfl (hg ▸ hc : Decodes _ (bodyGroups r'.body) c) hc'
    (by
      intro g hgm
      rw [← hg, ← hm] at hgm
      obtain ⟨⟨g, i⟩, hx, rfl⟩ := List.mem_map.1 hgm
      exact hn g i hx)
    (hm.trans hg) hm' hs1 hv1
  have hlen : c.length = c'.length := by rw [← List.length_map (f := (·.1)), hm, hg, ← hm', List.length_map]
  have tk : ∀ lo hi lo' hi', (∀ i j, SamePlace i j → ((lo ≤ i ∧ i ≤ hi) ↔ (lo' ≤ j ∧ j ≤ hi'))) →
      taken c lo hi = taken c' lo' hi' := fun lo hi lo' hi' hij =>
    taken_zip hlen fun x hx => ⟨(hp x hx).1, hij _ _ (hp x hx).2⟩
  have nm : ∀ lo hi, (∀ i j, SamePlace i j → ¬ (lo ≤ i ∧ i ≤ hi)) → taken c lo hi = [] := fun lo hi hij =>
    (tk lo hi 100 0 fun i j hs => ⟨fun hx => absurd hx (hij i j hs), fun hx => by omega⟩).trans (taken_none fun x _ => by omega)
  have nt : ∀ lo hi, (∀ i j, SamePlace i j → ¬ (lo ≤ j ∧ j ≤ hi)) → taken c' lo hi = [] := fun lo hi hij =>
    (tk 100 0 lo hi fun i j hs => ⟨fun hx => by omega, fun hx => absurd hx (hij i j hs)⟩).symm.trans
      (taken_none fun x _ => by omega)
  have e0 := tk 0 0 0 0 (by intro i j hij; have := hij.cases; omega)
  have e1 := tk 1 1 2 2 (by intro i j hij; have := hij.cases; omega)
  have e2 := tk 2 2 3 3 (by intro i j hij; have := hij.cases; omega)
  have e3 := tk 3 3 4 4 (by intro i j hij; have := hij.cases; omega)
  have e4 := tk 4 4 7 7 (by intro i j hij; have := hij.cases; omega)
  have e6 := tk 6 6 8 8 (by intro i j hij; have := hij.cases; omega)
  have e11 := tk 11 13 9 11 (by intro i j hij; have := hij.cases; omega)
  have e14 := tk 14 17 12 15 (by intro i j hij; have := hij.cases; omega)
  have n : ∀ lo hi, (lo = 5 ∧ hi = 5) ∨ (7 ≤ lo ∧ hi ≤ 10) ∨ 18 ≤ lo → taken c lo hi = [] := fun lo hi hlo =>
    nm lo hi (by intro i j hij; have := hij.cases; omega)
  have n' : ∀ lo hi, (lo = 1 ∧ hi = 1) ∨ (5 ≤ lo ∧ hi ≤ 6) ∨ 16 ≤ lo → taken c' lo hi = [] := fun lo hi hlo =>
    nt lo hi (by intro i j hij; have := hij.cases; omega)
  obtain ⟨hty, hst, -, hti⟩ := C107_header db clock clock' code code' a a' r r' h h' c c' hc hc'
  have hcore := C107_forecast _ _ _ _ _ _ _ _ _ _ (.metar h rfl hc) (.taf h' rfl hc')
  have hrules : r.core.flightRules = r'.core.flightRules := by
    have p1 := ForecastPart.metar h rfl hc
    have p2 := ForecastPart.taf h' rfl hc'
    rw [← e6, ← e14] at p2
    exact (C107_derived _ _ _ _ _ _ _ _ p1 p2).1
  refine ⟨⟨?_, hst e1, hcore.1 e4, hcore.2.1 e6, hcore.2.2.1 e11, hcore.2.2.2 e14, hrules, codeFrom_same ho k2 t3 e2,
    codeFrom_same ho k3 t4 e3, ⟨codeFrom_none t1 (n' 1 1 (by omega)), codeFrom_none t5 (n' 5 5 (by omega)),
      codeFrom_none t6 (n' 6 6 (by omega)), ?_, ?_⟩, ⟨codeFrom_none k5 (n 5 5 (by omega)), codeFrom_none k7 (n 7 7 (by omega)),
      ?_, codeFrom_none k18 (n 18 18 (by omega)), ?_, codeFrom_none k21 (n 21 21 (by omega)), ?_,
      codeFrom_none k25 (n 25 25 (by omega)), codeFrom_none k26 (n 26 26 (by omega))⟩⟩, ?_⟩
  · by_cases h0 : taken c 0 0 = []
    · exact .inr ⟨codeFrom_none k0 h0, codeFrom_none t0 (e0 ▸ h0)⟩
    · exact .inl (hty e0 h0)
  · rw [n' 16 19 (by omega)] at tx
    exact List.map_eq_nil_iff.1 tx
  · rw [n' 16 19 (by omega)] at tn
    exact List.map_eq_nil_iff.1 tn
  · unfold codes at k8
    rw [n 8 10 (by omega)] at k8
    exact List.map_eq_nil_iff.1 k8
  · unfold codes at k19
    rw [n 19 20 (by omega)] at k19
    exact k19
  · unfold codes at k22
    rw [n 22 24 (by omega)] at k22
    exact List.map_eq_nil_iff.1 k22
  · intro htc
    obtain ⟨g, hgt⟩ := codeFrom_some k2 htc
    exact hti e2 (List.ne_nil_of_mem (mem_taken.1 hgt))

theorem strict_metar {db : Database} {clock : Clock} {code : PyStr} {a : Args} {r : Metar}
    (h : Metar.new db clock code a = .ok r) (ht : a.truncate = true) : r.unparsed = [] := by
  obtain ⟨y, m, t⟩ := a
  cases ht
  have k := C07_truncate_metar db clock code y m
  cases h0 : Metar.new db clock code ⟨y, m, false⟩ with
  | error e => rw [(k.1 e h0).1] at h; cases h
  | ok r0 =>
    by_cases hu : r0.unparsed = []
    · rw [(k.2 r0 h0).1 hu] at h; cases h; exact hu
    · rw [(k.2 r0 h0).2 hu] at h; cases h

theorem strict_taf {db : Database} {clock : Clock} {code : PyStr} {a : Args} {r : Taf}
    (h : Taf.new db clock code a = .ok r) (ht : a.truncate = true) : r.unparsed = [] := by
  obtain ⟨y, m, t⟩ := a
  cases ht
  have k := C07_truncate_taf db clock code y m
  cases h0 : Taf.new db clock code ⟨y, m, false⟩ with
  | error e => rw [(k.1 e h0).1] at h; cases h
  | ok r0 =>
    by_cases hu : r0.unparsed = []
    · rw [(k.2 r0 h0).1 hu] at h; cases h; exact hu
    · rw [(k.2 r0 h0).2 hu] at h; cases h

/-- C108. A strict METAR has no group that only a TAF has, and a strict TAF none that only a METAR has. -/
theorem C108_strict (db : Database) (clock : Clock) (code : PyStr) (a : Args) (ht : a.truncate = true) :
    (∀ r, Metar.new db clock code a = .ok r → ∀ g ∈ metarGroups r.body, ¬ TafOnly g) ∧
    (∀ r, Taf.new db clock code a = .ok r → ∀ g ∈ bodyGroups r.body, ¬ MetarOnly g) := by
  refine ⟨fun r h g hg ho => ?_, fun r h g hg ho => ?_⟩
  · have := (C108_metar_left db clock code a r h).1 g hg ho
    rw [strict_metar h ht] at this
    cases this
  · have := (C108_taf_left db clock code a r h).1 g hg ho
    rw [strict_taf h ht] at this
    cases this

theorem joinProb_calm {ws : List PyStr} (h : ∀ w ∈ ws, ¬ Opens tafWords w) : joinProb ws = none := by
  induction ws with
  | nil => rfl
  | cons w ws ih =>
    cases ws with
    | nil => rfl
    | cons v rest =>
      have hp : isProb w v = false := by
        cases hb : isProb w v with
        | false => rfl
        | true =>
          simp only [isProb, Bool.and_eq_true, List.isPrefixOf_iff_prefix] at hb
          exact absurd ⟨_, by simp [tafWords], hb.2⟩ (h v (by simp))
      rw [joinProb, hp, if_neg (by simp), ih fun x hx => h x (List.mem_cons_of_mem _ hx)]
      rfl

/-- C108. One text without trends, changes and remarks that both constructors read strictly, with a station and a
visibility: both reports say the same. -/
theorem C108_text (db : Database) (clock clock' : Clock) (ws : List PyStr) (a a' : Args) (hne : ws ≠ [])
    (hw : ∀ w ∈ ws, Unbarred w ∧ 95 ∉ w ∧ Loose w ∧ ¬ Opens metarWords w ∧ ¬ Opens tafWords w)
    (htaf : ∀ w ∈ ws, py!"TAF" <:+ w → ws.head? = some w ∧ w = py!"TAF" ∧ ws.tail ≠ [] ∧ w ∉ ws.tail)
    (hts : a.truncate = true) (hts' : a'.truncate = true) (r : Metar) (r' : Taf)
    (h : Metar.new db clock (join [32] ws) a = .ok r) (h' : Taf.new db clock' (join [32] ws) a' = .ok r')
    (hs : r.station.code ≠ none) (hv : r.core.prevailing.code ≠ none) :
    SameContent r r' ∧
    (r.time.code ≠ none → a.year.getD (clock 2).year = a'.year.getD (clock' 1).year →
      a.month.getD (clock 2).month = a'.month.getD (clock' 1).month → r.time = r'.time) := by
  have b : r.body = join [32] ws := by
    have := (C09_sections db clock a ws [] none hne (fun w hx => ⟨(hw w hx).1, (hw w hx).2.2.2.1⟩) (by simp) (by simp) r
      (by simpa [metarText] using h)).2.1
    exact this
  have b' : r'.body = join [32] ws := by
    cases ws with
    | nil => exact absurd rfl hne
    | cons w0 bs =>
      refine (C11_sections db clock' a' (w0 :: bs) w0 bs [] (fun w hx => ⟨(hw w hx).1, (hw w hx).2.1⟩) ?_ ?_ ?_ (by simp) r'
        h').1
      · intro w hx hp
        obtain ⟨h1, h2, h3, h4⟩ := htaf w (List.mem_cons_of_mem _ hx) hp
        exact h4 hx
      · rw [joinProbs, joinProb_calm fun w hx => (hw w hx).2.2.2.2]
        simp
      · by_cases hp : py!"TAF" <:+ w0
        · obtain ⟨h1, h2, h3, h4⟩ := htaf w0 (by simp) hp
          exact .inr ⟨h2, h3, fun w hx => (hw w (List.mem_cons_of_mem _ (List.mem_of_mem_tail hx))).2.2.2.2⟩
        · exact .inl ⟨hp, fun w hx => (hw w (List.mem_cons_of_mem _ hx)).2.2.2.2⟩
  refine C108_both db clock clock' _ _ a a' r r' h h' ?_ (strict_metar h hts) (strict_taf h' hts') hs hv
  rw [b, b', metarGroups_loose hne (fun w hx => (hw w hx).1.solid) fun w hx => (hw w hx).2.2.1,
    bodyGroups_loose hne (fun w hx => (hw w hx).1.solid) fun w hx => (hw w hx).2.2.1.no_miles]

/-- Station, visibility and weather of a strict METAR and of a strict TAF. -/
def metarRoles (code : PyStr) : Option (List (Option PyStr)) :=
  (metarOk sampleClock code ⟨none, none, true⟩).map fun r =>
    r.station.code :: r.core.prevailing.code :: r.core.weathers.list.map Weather.code

def tafRoles (code : PyStr) : Option (List (Option PyStr)) :=
  (tafOk sampleClock code ⟨none, none, true⟩).map fun r =>
    r.station.code :: r.core.prevailing.code :: r.core.weathers.list.map Weather.code

/-- C108. The hypothesis that a station is decoded cannot be dropped: after COR the word is weather in a METAR and the
station in a TAF. Nor can the visibility: unknown precipitation is taken for the visibility of a TAF. -/
theorem C108_needs :
    metarRoles py!"COR TSRA" = some [none, none, some py!"TSRA"] ∧
    tafRoles py!"COR TSRA" = some [some py!"TSRA", none] ∧
    metarRoles py!"SCEL 101130Z UP" = some [some py!"SCEL", none, some py!"UP"] ∧
    tafRoles py!"SCEL 101130Z UP" = some [some py!"SCEL", some py!"UP"] := by
  decide +kernel

/-! ### Instances -/

/-- The words of a text that is read as both. -/
def bothWords : List PyStr := [py!"METAR", py!"SCEL", py!"101130Z", py!"18004KT", py!"9999", py!"RA", py!"FEW020"]

example : bothWords ≠ [] ∧
    (∀ w ∈ bothWords, (w ≠ [] ∧ ∀ c ∈ w, isSpace c = false ∧ c ≠ 61) ∧ 124 ∉ w ∧ 95 ∉ w ∧ ¬ py!"WS" <:+ w ∧
      (∀ k ∈ metarWords ++ tafWords, ¬ k <+: w) ∧ ¬ py!"TAF" <:+ w) := by
  decide +kernel

example : metarRoles (join [32] bothWords) = some [some py!"SCEL", some py!"9999", some py!"RA"] ∧
    tafRoles (join [32] bothWords) = some [some py!"SCEL", some py!"9999", some py!"RA"] := by
  decide +kernel

/-- A METAR with the valid period of a TAF, a TAF with the pressure of a METAR. -/
example : (metarOk sampleClock py!"METAR SCEL 101130Z 1012/1112 9999").map (·.unparsed) = some [py!"1012/1112"] ∧
    (tafOk sampleClock py!"TAF SCEL 101130Z 1012/1112 9999 Q1013 10/05").map (·.unparsed) =
      some [py!"Q1013", py!"10/05"] := by
  decide +kernel

example : TafOnly py!"1012/1112" ∧ MetarOnly py!"Q1013" ∧ MetarOnly py!"10/05" :=
  ⟨⟨.valid, by decide, admits_of (by decide +kernel)⟩, .pressure (admits_of (by decide +kernel)) (by decide),
    .temperatures (admits_of (by decide +kernel)) (by decide)⟩

end Verif.Props
