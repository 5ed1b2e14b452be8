import Verif.Lemmas.LeftOut
import Verif.Props.Local
import Verif.Props.Ambiguity
import Verif.Lemmas.Complete
import Verif.Props.Report
import Verif.Props.UnknownWord

/-
C110: groups left out of a report.
-/

namespace Verif.Props
open Spec

/-- C110, any section. `ks` are the kinds of the places. If the groups behind `head` are all decoded, each as the
first kind (behind those of `head`) that accepts it, then any of them can be left out: the others are decoded as
the same kinds, in the same order, and what is not decoded is the same. -/
theorem C110_section {σ κ : Type} (hs : List (Handler σ)) (ks : List κ) (p : κ → RE)
    (e : hs.map Handler.regexp = ks.map p) (head tail tail' : List PyStr) (hsub : tail'.Sublist tail)
    (c0 d c' : List (PyStr × Nat)) (un un' : List PyStr) (h0 : Decodes hs head c0)
    (hc : Decodes hs (head ++ tail) (c0 ++ d)) (hc' : Decodes hs (head ++ tail') c')
    (hu0 : Leaves hs head un) (hu : Leaves hs (head ++ tail) un) (hu' : Leaves hs (head ++ tail') un')
    (hf : FirstOfKind ks p c0 d) :
    un' = un ∧ ∃ d', c' = c0 ++ d' ∧ d'.map (·.1) = tail' ∧ (withKinds ks d').Sublist (withKinds ks d) :=
  decodes_leftOut e hsub h0 hc hc' hu0 hu hu' hf

theorem withKinds_append {κ : Type} (ks : List κ) (c d : List (PyStr × Nat)) :
    withKinds ks (c ++ d) = withKinds ks c ++ withKinds ks d := by simp [withKinds]

theorem places_of {κ : Type} [DecidableEq κ] {ks : List κ} {K : κ} {lo hi : Nat}
    (h1 : ∀ j ∈ List.range' lo (hi + 1 - lo), ks[j]? = some K)
    (h2 : ∀ j ∈ List.range ks.length, ks[j]? = some K → lo ≤ j ∧ j ≤ hi) (i : Nat) :
    ks[i]? = some K ↔ lo ≤ i ∧ i ≤ hi := by
  constructor
  · intro h
    exact h2 i (List.mem_range.2 (List.getElem?_eq_some_iff.1 h).1) h
  · rintro ⟨h3, h4⟩
    exact h1 i (List.mem_range'_1.2 ⟨h3, by omega⟩)

/-- C110, METAR. `head` are the first groups of the body, decoded as `c0`; the others are all decoded, each as the
first kind that accepts it. A report in which some of the others are left out has the same attributes, but for
those whose groups are left out. -/
theorem C110_metar (db : Database) (clock : Clock) (code code' : PyStr) (a : Args) (r r' : Metar)
    (h : Metar.new db clock code a = .ok r) (h' : Metar.new db clock code' a = .ok r')
    (head tail tail' : List PyStr) (hb : metarGroups r.body = head ++ tail)
    (hb' : metarGroups r'.body = head ++ tail') (hsub : tail'.Sublist tail)
    (c0 d : List (PyStr × Nat)) (un : List PyStr)
    (h0 : Decodes (Metar.handlers db (clock 2) a) head c0)
    (hu0 : Leaves (Metar.handlers db (clock 2) a) head un)
    (hc : Decodes (Metar.handlers db (clock 2) a) (head ++ tail) (c0 ++ d))
    (hu : Leaves (Metar.handlers db (clock 2) a) (head ++ tail) un)
    (hf : FirstOfKind metarOrder MetarKind.pattern c0 d) :
    ∃ d', Decodes (Metar.handlers db (clock 2) a) (metarGroups r'.body) (c0 ++ d') ∧ d'.map (·.1) = tail' ∧
      MetarLess (c0 ++ d) (c0 ++ d') r r' ∧
      (r'.trend = r.trend → r'.time = r.time →
        r'.weatherTrends.list = r.weatherTrends.list ∧ r'.unparsed = r.unparsed) := by
  have e : (Metar.handlers db (clock 2) a).map Handler.regexp = metarOrder.map MetarKind.pattern := rfl
  obtain ⟨⟨vn, hv, ev⟩, -⟩ := C08_metar_unparsed db clock code a r h
  obtain ⟨⟨un', hu', eu'⟩, -⟩ := C08_metar_unparsed db clock code' a r' h'
  change Leaves _ (metarGroups r.body) vn at hv
  change Leaves _ (metarGroups r'.body) un' at hu'
  rw [hb] at hv
  rw [hb'] at hu'
  obtain rfl : vn = un := by
    obtain ⟨a1, l1, f1, rfl⟩ := hv
    obtain ⟨a2, l2, f2, rfl⟩ := hu
    rw [firstApplicable_unique _ _ _ _ l1 l2 f1 f2]
  obtain ⟨c', hc'⟩ : ∃ c, Decodes (Metar.handlers db (clock 2) a) (head ++ tail') c :=
    ⟨_, (decodes_iff _ _ _).2 rfl⟩
  obtain ⟨rfl, d', rfl, hd', hk⟩ := decodes_leftOut e hsub h0 hc hc' hu0 hu hu' hf
  have hk : (withKinds metarOrder (c0 ++ d')).Sublist (withKinds metarOrder (c0 ++ d)) := by
    rw [withKinds_append, withKinds_append]
    exact (List.Sublist.refl _).append hk
  rw [← hb] at hc
  rw [← hb'] at hc'
  obtain ⟨t, e0, ho, q, -⟩ := Metar.new_decodes h hc
  obtain ⟨t', e0', -, q', -⟩ := Metar.new_decodes h' hc'
  obtain rfl := Except.ok.inj (e0.symm.trans e0')
  have sub : ∀ (lo hi : Nat) (K : MetarKind), (∀ j ∈ List.range' lo (hi + 1 - lo), metarOrder[j]? = some K) →
      (∀ j ∈ List.range 27, metarOrder[j]? = some K → lo ≤ j ∧ j ≤ hi) →
      (taken (c0 ++ d') lo hi).Sublist (taken (c0 ++ d) lo hi) :=
    fun lo hi K h1 h2 => taken_sublist (places_of h1 h2) hk
  refine ⟨d', hc', hd', ?_, ?_⟩
  · exact {
      type := FromGroup.less ho q.type q'.type (sub _ _ .type (by decide) (by decide))
      station := FromGroup.less ho q.station q'.station (sub _ _ .station (by decide) (by decide))
      time := (FromGroup.less ho q.time q'.time (sub _ _ .time (by decide) (by decide))).imp id And.right
      modifier := FromGroup.less ho q.modifier q'.modifier (sub _ _ .modifier (by decide) (by decide))
      wind := FromGroup.less ho q.wind q'.wind (sub _ _ .wind (by decide) (by decide))
      windVariation :=
        FromGroup.less ho q.windVariation q'.windVariation (sub _ _ .variation (by decide) (by decide))
      prevailing := FromGroup.less ho q.prevailing q'.prevailing (sub _ _ .visibility (by decide) (by decide))
      minimum := FromGroup.less ho q.minimum q'.minimum (sub _ _ .minimum (by decide) (by decide))
      ranges := FromGroups.less q.ranges.1 q'.ranges.1 (sub _ _ .range (by decide) (by decide))
      weathers := FromGroups.less q.weathers.1 q'.weathers.1 (sub _ _ .weather (by decide) (by decide))
      clouds := FromGroups.less q.clouds.1 q'.clouds.1 (sub _ _ .cloud (by decide) (by decide))
      temperatures :=
        FromGroup.less ho q.temperatures q'.temperatures (sub _ _ .temperatures (by decide) (by decide))
      pressure := ⟨sub _ _ .pressure (by decide) (by decide), fun hl => FromLast.less q.pressure q'.pressure hl⟩
      recent := FromGroup.less ho q.recent q'.recent (sub _ _ .recent (by decide) (by decide))
      windshears := FromGroups.less q.windshears.1 q'.windshears.1 (sub _ _ .shear (by decide) (by decide))
      sea := FromGroup.less ho q.sea q'.sea (sub _ _ .sea (by decide) (by decide))
      runwayState := FromGroup.less ho q.runwayState q'.runwayState (sub _ _ .runway (by decide) (by decide)) }
  · intro htr htm
    have := ((C77_metar rfl rfl h h').2 (by rw [htm])).2 htr
    exact ⟨this, by rw [ev, eu', this]⟩

/-- C110, TAF. -/
theorem C110_taf (db : Database) (clock : Clock) (code code' : PyStr) (a : Args) (r r' : Taf)
    (h : Taf.new db clock code a = .ok r) (h' : Taf.new db clock code' a = .ok r')
    (head tail tail' : List PyStr) (hb : bodyGroups r.body = head ++ tail)
    (hb' : bodyGroups r'.body = head ++ tail') (hsub : tail'.Sublist tail)
    (c0 d : List (PyStr × Nat)) (un : List PyStr)
    (h0 : Decodes (Taf.handlers db (clock 1) a) head c0)
    (hu0 : Leaves (Taf.handlers db (clock 1) a) head un)
    (hc : Decodes (Taf.handlers db (clock 1) a) (head ++ tail) (c0 ++ d))
    (hu : Leaves (Taf.handlers db (clock 1) a) (head ++ tail) un)
    (hf : FirstOfKind tafOrder TafKind.pattern c0 d) :
    ∃ d', Decodes (Taf.handlers db (clock 1) a) (bodyGroups r'.body) (c0 ++ d') ∧ d'.map (·.1) = tail' ∧
      TafLess (c0 ++ d) (c0 ++ d') r r' ∧
      (r'.changesCodes = r.changesCodes → r'.valid = r.valid →
        r'.changes.list = r.changes.list ∧ r'.unparsed = r.unparsed) := by
  have e : (Taf.handlers db (clock 1) a).map Handler.regexp = tafOrder.map TafKind.pattern := rfl
  obtain ⟨⟨vn, hv, ev⟩, -⟩ := C08_taf_unparsed db clock code a r h
  obtain ⟨⟨un', hu', eu'⟩, -⟩ := C08_taf_unparsed db clock code' a r' h'
  change Leaves _ (bodyGroups r.body) vn at hv
  change Leaves _ (bodyGroups r'.body) un' at hu'
  rw [hb] at hv
  rw [hb'] at hu'
  obtain rfl : vn = un := by
    obtain ⟨a1, l1, f1, rfl⟩ := hv
    obtain ⟨a2, l2, f2, rfl⟩ := hu
    rw [firstApplicable_unique _ _ _ _ l1 l2 f1 f2]
  obtain ⟨c', hc'⟩ : ∃ c, Decodes (Taf.handlers db (clock 1) a) (head ++ tail') c :=
    ⟨_, (decodes_iff _ _ _).2 rfl⟩
  obtain ⟨rfl, d', rfl, hd', hk⟩ := decodes_leftOut e hsub h0 hc hc' hu0 hu hu' hf
  have hk : (withKinds tafOrder (c0 ++ d')).Sublist (withKinds tafOrder (c0 ++ d)) := by
    rw [withKinds_append, withKinds_append]
    exact (List.Sublist.refl _).append hk
  rw [← hb] at hc
  rw [← hb'] at hc'
  obtain ⟨t, v, e0, e1, ho, q, -⟩ := Taf.new_decodes h hc
  obtain ⟨t', v', e0', e1', -, q', -⟩ := Taf.new_decodes h' hc'
  obtain rfl := Except.ok.inj (e0.symm.trans e0')
  obtain rfl := Except.ok.inj (e1.symm.trans e1')
  have sub : ∀ (lo hi : Nat) (K : TafKind), (∀ j ∈ List.range' lo (hi + 1 - lo), tafOrder[j]? = some K) →
      (∀ j ∈ List.range 20, tafOrder[j]? = some K → lo ≤ j ∧ j ≤ hi) →
      (taken (c0 ++ d') lo hi).Sublist (taken (c0 ++ d) lo hi) :=
    fun lo hi K h1 h2 => taken_sublist (places_of h1 h2) hk
  refine ⟨d', hc', hd', ?_, ?_⟩
  · exact {
      type := FromGroup.less ho q.type q'.type (sub _ _ .type (by decide) (by decide))
      modifier := FromGroup.less ho q.modifier q'.modifier (sub _ _ .amendment (by decide) (by decide))
      station := FromGroup.less ho q.station q'.station (sub _ _ .station (by decide) (by decide))
      time := (FromGroup.less ho q.time q'.time (sub _ _ .time (by decide) (by decide))).imp id And.right
      missing := FromGroup.less ho q.missing q'.missing (sub _ _ .missing (by decide) (by decide))
      valid := by
        intro htm
        have q2 := q'.valid
        rw [htm] at q2
        exact (FromGroup.less ho q.valid q2 (sub _ _ .valid (by decide) (by decide))).imp id And.right
      cancelled := FromGroup.less ho q.cancelled q'.cancelled (sub _ _ .cancelled (by decide) (by decide))
      wind := FromGroup.less ho q.wind q'.wind (sub _ _ .wind (by decide) (by decide))
      prevailing := FromGroup.less ho q.prevailing q'.prevailing (sub _ _ .visibility (by decide) (by decide))
      weathers := FromGroups.less q.weathers.1 q'.weathers.1 (sub _ _ .weather (by decide) (by decide))
      clouds := FromGroups.less q.clouds.1 q'.clouds.1 (sub _ _ .cloud (by decide) (by decide))
      temperatures := by
        intro htm
        obtain ⟨ts, q1, q2, q3⟩ := q.temperatures
        obtain ⟨ts', q1', q2', q3'⟩ := q'.temperatures
        rw [htm] at q1'
        have := FromGroups.less q1 q1' (sub _ _ .temperature (by decide) (by decide))
        rw [q2, q3, q2', q3']
        exact ⟨(this.filter _).map _, (this.filter _).map _⟩ }
  · intro htr hvl
    have := ((C77_taf rfl rfl h h').2 hvl).2 htr
    exact ⟨this, by rw [ev, eu', this]⟩

/-! ### Conditions on the words -/

/-- The places of a kind. -/
def metarPlace : MetarKind → Nat → Prop
  | .type, i => i = 0 | .station, i => i = 1 | .time, i => i = 2 | .modifier, i => i = 3 | .wind, i => i = 4
  | .variation, i => i = 5 | .visibility, i => i = 6 | .minimum, i => i = 7 | .range, i => 8 ≤ i ∧ i ≤ 10
  | .weather, i => 11 ≤ i ∧ i ≤ 13 | .cloud, i => 14 ≤ i ∧ i ≤ 17 | .temperatures, i => i = 18
  | .pressure, i => i = 19 ∨ i = 20 | .recent, i => i = 21 | .shear, i => 22 ≤ i ∧ i ≤ 24 | .sea, i => i = 25
  | .runway, i => i = 26

instance (k : MetarKind) (i : Nat) : Decidable (metarPlace k i) := by
  cases k <;> unfold metarPlace <;> infer_instance

def tafPlace : TafKind → Nat → Prop
  | .type, i => i = 0 | .amendment, i => i = 1 | .station, i => i = 2 | .time, i => i = 3 | .missing, i => i = 4
  | .valid, i => i = 5 | .cancelled, i => i = 6 | .wind, i => i = 7 | .visibility, i => i = 8
  | .weather, i => 9 ≤ i ∧ i ≤ 11 | .cloud, i => 12 ≤ i ∧ i ≤ 15 | .temperature, i => 16 ≤ i ∧ i ≤ 19

instance (k : TafKind) (i : Nat) : Decidable (tafPlace k i) := by
  cases k <;> unfold tafPlace <;> infer_instance

/-- C110, METAR, when the condition holds. Behind the station (or a later place), a group is of the first kind that
accepts it unless it was read as the minimum visibility, or is a pressure of four digits or solidi only. -/
theorem C110_metar_kinds (db : Database) (now : Now) (a : Args) (gs : List PyStr) (c0 d : List (PyStr × Nat))
    (hc : Decodes (Metar.handlers db now a) gs (c0 ++ d)) (hn : ∀ x ∈ d, 10 ∉ x.1) (h1 : ∃ y ∈ c0, 1 ≤ y.2)
    (hq : ∀ x ∈ d, x.2 ≠ 7 ∧ (Bare x.1 → x.2 ≠ 19 ∧ x.2 ≠ 20)) :
    FirstOfKind metarOrder MetarKind.pattern c0 d := by
  have e : (Metar.handlers db now a).map Handler.regexp = metarOrder.map MetarKind.pattern := rfl
  have pl : ∀ K i, metarOrder[i]? = some K → metarPlace K i := fun K i h => by
    have hi := (List.getElem?_eq_some_iff.1 h).1
    have : ∀ i ∈ List.range 27, ∀ K, metarOrder[i]? = some K → metarPlace K i := by
      intro i hi K h
      have key : ((List.range 27).all fun i => match metarOrder[i]? with
          | some K => decide (metarPlace K i)
          | none => true) = true := by decide
      have := List.all_eq_true.1 key i hi
      simpa [h] using this
    exact this i (List.mem_range.2 hi) K h
  intro x hx j k hj h0 hk hm
  obtain ⟨K, hK, hKm⟩ := taken_kind e hc (g := x.1) (i := x.2) (List.mem_append_right _ hx)
  have p1 := pl _ _ hk
  have p2 := pl _ _ hK
  have q := hq x hx
  obtain ⟨y, hy, hy1⟩ := h1
  have hyj := h0 y hy
  rcases (C79_metar k K x.1 (hn x hx)).1 hm hKm with rfl | hs | hs
  · exact hK
  · exfalso
    generalize x.1 = w at hs q
    cases hs <;> simp only [metarPlace] at p1 p2
    all_goals first
      | omega
      | (rename_i hb; have := q.2 hb; omega)
  · exfalso
    generalize x.1 = w at hs q
    cases hs <;> simp only [metarPlace] at p1 p2 <;> omega

/-- C110, TAF, when the condition holds. Behind the station, a group is of the first kind that accepts it unless it
was read as the visibility, though it is a time, a valid period or a wind, or as weather, though the pattern of the
visibility accepts it. -/
theorem C110_taf_kinds (db : Database) (now : Now) (a : Args) (gs : List PyStr) (c0 d : List (PyStr × Nat))
    (hc : Decodes (Taf.handlers db now a) gs (c0 ++ d)) (hn : ∀ x ∈ d, 10 ∉ x.1) (h1 : ∃ y ∈ c0, 2 ≤ y.2)
    (hq : ∀ x ∈ d, (x.2 = 8 → ∀ k ∈ [TafKind.time, .valid, .wind], ¬ Admits k.pattern x.1) ∧
      (9 ≤ x.2 ∧ x.2 ≤ 11 → ¬ Admits TafKind.visibility.pattern x.1)) :
    FirstOfKind tafOrder TafKind.pattern c0 d := by
  have e : (Taf.handlers db now a).map Handler.regexp = tafOrder.map TafKind.pattern := rfl
  have pl : ∀ K i, tafOrder[i]? = some K → tafPlace K i := fun K i h => by
    have hi := (List.getElem?_eq_some_iff.1 h).1
    have : ∀ i ∈ List.range 20, ∀ K, tafOrder[i]? = some K → tafPlace K i := by
      intro i hi K h
      have key : ((List.range 20).all fun i => match tafOrder[i]? with
          | some K => decide (tafPlace K i)
          | none => true) = true := by decide
      have := List.all_eq_true.1 key i hi
      simpa [h] using this
    exact this i (List.mem_range.2 hi) K h
  intro x hx j k hj h0 hk hm
  obtain ⟨K, hK, hKm⟩ := taken_kind e hc (g := x.1) (i := x.2) (List.mem_append_right _ hx)
  have p1 := pl _ _ hk
  have p2 := pl _ _ hK
  obtain ⟨q1, q2⟩ := hq x hx
  obtain ⟨y, hy, hy1⟩ := h1
  have hyj := h0 y hy
  rcases (C79_taf k K).1 ⟨x.1, hn x hx, hm, hKm⟩ with rfl | ⟨v, hs⟩ | ⟨v, hs⟩
  · exact hK
  · exfalso
    simp only [sharedTaf, List.mem_cons, List.not_mem_nil, or_false, Prod.mk.injEq] at hs
    rcases hs with ⟨rfl, rfl, -⟩ | ⟨rfl, rfl, -⟩ | ⟨rfl, rfl, -⟩ | ⟨rfl, rfl, -⟩ | ⟨rfl, rfl, -⟩ | ⟨rfl, rfl, -⟩ |
      ⟨rfl, rfl, -⟩ | ⟨rfl, rfl, -⟩ <;> simp only [tafPlace] at p1 p2
    all_goals first
      | omega
      | exact q1 p2 _ (by simp) hm
      | exact q2 p2 hm
  · exfalso
    simp only [sharedTaf, List.mem_cons, List.not_mem_nil, or_false, Prod.mk.injEq] at hs
    rcases hs with ⟨rfl, rfl, -⟩ | ⟨rfl, rfl, -⟩ | ⟨rfl, rfl, -⟩ | ⟨rfl, rfl, -⟩ | ⟨rfl, rfl, -⟩ | ⟨rfl, rfl, -⟩ |
      ⟨rfl, rfl, -⟩ | ⟨rfl, rfl, -⟩ <;> simp only [tafPlace] at p1 p2 <;> omega

theorem leaves_nil_append {σ : Type} {hs : List (Handler σ)} {gs more : List PyStr}
    (h : Leaves hs (gs ++ more) []) : Leaves hs gs [] := by
  obtain ⟨a, l, f, e⟩ := h
  rw [firstApplicable_unique _ _ _ _ l (assign_length hs 0 _) f (assign_firstApplicable hs _)] at e
  obtain ⟨k', e'⟩ := assign_append hs gs more 0
  rw [e', leftover_append (assign_length hs 0 gs)] at e
  exact ⟨_, assign_length hs 0 gs, assign_firstApplicable hs gs, (List.append_eq_nil_iff.1 e.symm).1.symm⟩

theorem decodes_whole {σ : Type} {hs : List (Handler σ)} {gs : List PyStr} {c : List (PyStr × Nat)}
    (h : Decodes hs gs c) (hl : Leaves hs gs []) : c.map (·.1) = gs := by
  obtain ⟨a, l, f, e⟩ := hl
  rw [firstApplicable_unique _ _ _ _ l (assign_length hs 0 _) f (assign_firstApplicable hs _)] at e
  rw [(decodes_iff _ _ _).1 h]
  exact consumed_whole (assign_length hs 0 gs) e.symm

/-- C110, METAR, in words. A METAR is read completely, with a time group in `head`. It is written again with some
of the groups behind `head` left out. If no group was read as the minimum visibility, and no pressure is four digits
or solidi only, the second report is read completely too, has the same time and the same trends, and of the other
attributes nothing that the first does not have. -/
theorem C110_metar_text (db : Database) (clock : Clock) (a : Args) (head tail tail' : List PyStr)
    (hsub : tail'.Sublist tail) (trends : List (PyStr × List PyStr)) (remark : Option (PyStr × List PyStr))
    (hb : ∀ x ∈ head ++ tail, Unbarred x ∧ ¬ Opens metarWords x ∧ Loose x)
    (ht : ∀ p ∈ trends, Part trendWords metarWords p)
    (hr : ∀ p ∈ remark, Part [py!"RMK"] metarWords p) (w : PyStr) (hw : w ∈ head)
    (hwt : Admits MetarKind.time.pattern w) (r r' : Metar)
    (h : Metar.new db clock (join [32] (metarText (head ++ tail) trends remark)) a = .ok r)
    (h' : Metar.new db clock (join [32] (metarText (head ++ tail') trends remark)) a = .ok r')
    (hu : r.unparsed = [])
    (hq : ∀ c, Decodes (Metar.handlers db (clock 2) a) (head ++ tail) c →
      ∀ x ∈ c, x.2 ≠ 7 ∧ (Bare x.1 → x.2 ≠ 19 ∧ x.2 ≠ 20)) :
    r'.unparsed = [] ∧ r'.time = r.time ∧ r'.weatherTrends.list = r.weatherTrends.list ∧
    ∃ c c', Decodes (Metar.handlers db (clock 2) a) (head ++ tail) c ∧
      Decodes (Metar.handlers db (clock 2) a) (head ++ tail') c' ∧ MetarLess c c' r r' := by
  have sec : ∀ t : List PyStr, t.Sublist tail → ∀ r : Metar,
      Metar.new db clock (join [32] (metarText (head ++ t) trends remark)) a = .ok r →
      metarGroups r.body = head ++ t ∧ r.trend = join [32] (trends.flatMap fun p => p.1 :: p.2) := by
    intro t hs r hr'
    have hx : ∀ x ∈ head ++ t, Unbarred x ∧ ¬ Opens metarWords x ∧ Loose x := by
      intro x hx
      apply hb
      rcases List.mem_append.1 hx with h | h
      · exact List.mem_append_left _ h
      · exact List.mem_append_right _ (hs.subset h)
    have hne : head ++ t ≠ [] := by
      intro h0
      rw [(List.append_eq_nil_iff.1 h0).1] at hw
      cases hw
    have h1 := metarSections_text (head ++ t) trends remark hne (fun x h => ⟨(hx x h).1, (hx x h).2.1⟩) ht hr
    have h2 := Metar.new_sections hr'
    rw [h1.1] at h2
    refine ⟨?_, h2.2.1.trans h1.2.2.1⟩
    rw [h2.1, h1.2.1]
    exact metarGroups_loose hne (fun x h => (hx x h).1.solid) fun x h => (hx x h).2.2
  obtain ⟨g1, t1⟩ := sec tail (List.Sublist.refl _) r h
  obtain ⟨g2, t2⟩ := sec tail' hsub r' h'
  have hl : Leaves (Metar.handlers db (clock 2) a) (head ++ tail) [] := by
    obtain ⟨⟨un, hl, e⟩, -⟩ := C08_metar_unparsed db clock _ a r h
    rw [hu] at e
    obtain ⟨rfl, -⟩ := List.append_eq_nil_iff.1 e.symm
    change Leaves _ (metarGroups r.body) [] at hl
    rwa [g1] at hl
  have hl0 := leaves_nil_append hl
  obtain ⟨c0, hc0⟩ : ∃ c, Decodes (Metar.handlers db (clock 2) a) head c := ⟨_, (decodes_iff _ _ _).2 rfl⟩
  obtain ⟨c, hc⟩ : ∃ c, Decodes (Metar.handlers db (clock 2) a) (head ++ tail) c := ⟨_, (decodes_iff _ _ _).2 rfl⟩
  obtain ⟨d, rfl⟩ := decodes_append hc0 hc
  have hn : ∀ x ∈ c0 ++ d, 10 ∉ x.1 := by
    have hc2 := hc
    rw [← g1] at hc2
    obtain ⟨-, -, -, -, hn⟩ := Metar.new_decodes h hc2
    exact fun x hx => hn x.1 x.2 hx
  have htm : (w, 2) ∈ c0 := by
    have hm : w ∈ c0.map (·.1) := by rw [decodes_whole hc0 hl0]; exact hw
    obtain ⟨⟨v, i⟩, hx, rfl⟩ := List.mem_map.1 hm
    have := C79_metar_read db (clock 2) a head c0 hc0 v i hx (hn _ (List.mem_append_left _ hx)) .time hwt
      (fun k' => by constructor <;> (intro h; nomatch h))
    have : i = 2 := by
      have hi := (List.getElem?_eq_some_iff.1 this).1
      have key : ∀ i ∈ List.range 27, metarOrder[i]? = some MetarKind.time → i = 2 := by decide
      exact key i (List.mem_range.2 hi) this
    subst this
    exact hx
  have hf := C110_metar_kinds db (clock 2) a _ c0 d hc (fun x hx => hn x (List.mem_append_right _ hx))
    ⟨_, htm, Nat.le_succ 1⟩ (fun x hx => hq _ hc x (List.mem_append_right _ hx))
  obtain ⟨d', hd', -, less, rest⟩ := C110_metar db clock _ _ a r r' h h' head tail tail' g1 g2 hsub c0 d [] hc0 hl0 hc hl hf
  have time : r'.time = r.time := by
    rcases less.time with e | ⟨-, e⟩
    · exact e
    · exact (e w (List.mem_append_left _ htm)).elim
  obtain ⟨e1, e2⟩ := rest (t2.trans t1.symm) time
  rw [g2] at hd'
  exact ⟨e2.trans hu, time, e1, _, _, hc, hd', less⟩

/-- C110, TAF, in words. A TAF is read completely, its time and valid period from the words of `head`; `rest` are the
words of the changes. It is written again with some of the groups behind `head` left out. If no time, valid period or
wind was read as the visibility, and no weather could have been, the second report is read completely too, has the
same time, valid period and changes, and of the other attributes nothing that the first does not have. -/
theorem C110_taf_text (db : Database) (clock : Clock) (a : Args) (w0 : PyStr) (head tail tail' rest : List PyStr)
    (hsub : tail'.Sublist tail) (changes : List (PyStr × List PyStr))
    (hb : ∀ x ∈ w0 :: (head ++ tail) ++ rest, Unbarred x ∧ 95 ∉ x)
    (hin : ∀ x ∈ head ++ tail ++ rest, ¬ py!"TAF" <:+ x)
    (hl : ∀ x ∈ w0 :: (head ++ tail), Loose x ∧ ∀ v, isProb x v = false)
    (h0 : ¬ py!"TAF" <:+ w0 ∧ (∀ x ∈ head ++ tail, ¬ Opens tafWords x) ∨
      w0 = py!"TAF" ∧ ∀ x ∈ head.tail ++ tail, ¬ Opens tafWords x)
    (e : joinProbs 5 rest = changes.flatMap fun p => p.1 :: p.2)
    (hch : ∀ p ∈ changes, Opens tafWords p.1 ∧ ∀ w ∈ p.2, ¬ Opens tafWords w) (r r' : Taf)
    (h : Taf.new db clock (join [32] (w0 :: (head ++ tail) ++ rest)) a = .ok r)
    (h' : Taf.new db clock (join [32] (w0 :: (head ++ tail') ++ rest)) a = .ok r')
    (hu : r.unparsed = [])
    (hp : ∀ c, Decodes (Taf.handlers db (clock 1) a) (w0 :: head) c → (∃ t, (t, 3) ∈ c) ∧ ∃ v, (v, 5) ∈ c)
    (hq : ∀ c, Decodes (Taf.handlers db (clock 1) a) (w0 :: (head ++ tail)) c →
      ∀ x ∈ c, (x.2 = 8 → ∀ k ∈ [TafKind.time, .valid, .wind], ¬ Admits k.pattern x.1) ∧
        (9 ≤ x.2 ∧ x.2 ≤ 11 → ¬ Admits TafKind.visibility.pattern x.1)) :
    r'.unparsed = [] ∧ r'.time = r.time ∧ r'.valid = r.valid ∧ r'.changes.list = r.changes.list ∧
    ∃ c c', Decodes (Taf.handlers db (clock 1) a) (w0 :: (head ++ tail)) c ∧
      Decodes (Taf.handlers db (clock 1) a) (w0 :: (head ++ tail')) c' ∧ TafLess c c' r r' := by
  have hne : head ≠ [] := by
    rintro rfl
    obtain ⟨⟨t, ht⟩, v, hv⟩ := hp _ ((decodes_iff _ _ _).2 rfl)
    have h3 := consumed_mem ht
    have h5 := consumed_mem hv
    simp only [List.mem_singleton] at h3 h5
    have hlen := assign_length (Taf.handlers db (clock 1) a) 0 [w0]
    revert ht hv hlen
    generalize assign (Taf.handlers db (clock 1) a) 0 [w0] = asg
    intro ht hv hlen
    match asg, hlen with
    | [none], _ => simp [consumed] at ht
    | [some i], _ =>
      simp [consumed] at ht hv
      omega
  have sec : ∀ t : List PyStr, t.Sublist tail → ∀ r : Taf,
      Taf.new db clock (join [32] (w0 :: (head ++ t) ++ rest)) a = .ok r →
      bodyGroups r.body = w0 :: (head ++ t) ∧ r.changesCodes = changes.map fun p => join [32] (p.1 :: p.2) := by
    intro t hs r hr
    have up : ∀ x, x ∈ head ++ t → x ∈ head ++ tail := by
      intro x hx
      rcases List.mem_append.1 hx with h | h
      · exact List.mem_append_left _ h
      · exact List.mem_append_right _ (hs.subset h)
    have up0 : ∀ x, x ∈ w0 :: (head ++ t) → x ∈ w0 :: (head ++ tail) := by
      intro x hx
      rcases List.mem_cons.1 hx with rfl | h
      · simp
      · exact List.mem_cons_of_mem _ (up x h)
    have ub : ∀ x ∈ w0 :: (head ++ t) ++ rest, Unbarred x ∧ 95 ∉ x := by
      intro x hx
      apply hb
      rcases List.mem_append.1 hx with h | h
      · exact List.mem_append_left _ (up0 x h)
      · exact List.mem_append_right _ h
    have h1 := tafSections_text (w0 := w0) (bs := head ++ t) (changes := changes) ub
      (fun x hx => by
        apply hin
        rcases List.mem_append.1 hx with h | h
        · exact List.mem_append_left _ (up x h)
        · exact List.mem_append_right _ h)
      (by
        rw [joinProbs_calm fun x hx => (hl x (up0 x hx)).2, e])
      (by
        rcases h0 with ⟨h1, h2⟩ | ⟨h1, h2⟩
        · exact .inl ⟨h1, fun x hx => h2 x (up x hx)⟩
        · refine .inr ⟨h1, by simp [hne], fun x hx => h2 x ?_⟩
          rw [List.tail_append_of_ne_nil hne] at hx
          rcases List.mem_append.1 hx with h | h
          · exact List.mem_append_left _ h
          · exact List.mem_append_right _ (hs.subset h))
      hch
    obtain ⟨-, h2, h3⟩ := Taf.new_sections hr
    rw [h1.1, h1.2] at h2 h3
    refine ⟨?_, h3⟩
    rw [h2]
    exact bodyGroups_loose (by simp) (fun x hx => (ub x (List.mem_append_left _ hx)).1.solid)
      fun x hx => (hl x (up0 x hx)).1.no_miles
  obtain ⟨g1, t1⟩ := sec tail (List.Sublist.refl _) r h
  obtain ⟨g2, t2⟩ := sec tail' hsub r' h'
  rw [← List.cons_append] at g1 g2
  have hl : Leaves (Taf.handlers db (clock 1) a) (w0 :: head ++ tail) [] := by
    obtain ⟨⟨un, hl, e⟩, -⟩ := C08_taf_unparsed db clock _ a r h
    rw [hu] at e
    obtain ⟨rfl, -⟩ := List.append_eq_nil_iff.1 e.symm
    change Leaves _ (bodyGroups r.body) [] at hl
    rwa [g1] at hl
  have hl0 := leaves_nil_append hl
  obtain ⟨c0, hc0⟩ : ∃ c, Decodes (Taf.handlers db (clock 1) a) (w0 :: head) c := ⟨_, (decodes_iff _ _ _).2 rfl⟩
  obtain ⟨c, hc⟩ : ∃ c, Decodes (Taf.handlers db (clock 1) a) (w0 :: head ++ tail) c := ⟨_, (decodes_iff _ _ _).2 rfl⟩
  obtain ⟨d, rfl⟩ := decodes_append hc0 hc
  have hn : ∀ x ∈ c0 ++ d, 10 ∉ x.1 := by
    have hc2 := hc
    rw [← g1] at hc2
    obtain ⟨-, -, -, -, -, -, hn⟩ := Taf.new_decodes h hc2
    exact fun x hx => hn x.1 x.2 hx
  obtain ⟨⟨t, ht⟩, v, hv⟩ := hp c0 hc0
  have hf := C110_taf_kinds db (clock 1) a _ c0 d hc (fun x hx => hn x (List.mem_append_right _ hx))
    ⟨_, ht, Nat.le_succ 2⟩ (fun x hx => hq _ hc x (List.mem_append_right _ hx))
  obtain ⟨d', hd', -, less, more⟩ := C110_taf db clock _ _ a r r' h h' (w0 :: head) tail tail' g1 g2 hsub c0 d [] hc0 hl0
    hc hl hf
  have time : r'.time = r.time := by
    rcases less.time with e | ⟨-, e⟩
    · exact e
    · exact (e t (List.mem_append_left _ ht)).elim
  have valid : r'.valid = r.valid := by
    rcases less.valid time with e | ⟨-, e⟩
    · exact e
    · exact (e v (List.mem_append_left _ hv)).elim
  obtain ⟨e1, e2⟩ := more (t2.trans t1.symm) valid
  rw [g2] at hd'
  exact ⟨e2.trans hu, time, valid, e1, _, _, hc, hd', less⟩

/-! ### Trends and changes -/

/-- C110, a trend. If all its groups are decoded, any of them can be left out, without condition: in a trend no word
is ambiguous. -/
theorem C110_trend (db db' : Database) (clock clock' : Clock) (code code' : PyStr) (a a' : Args) (r r' : Metar)
    (h : Metar.new db clock code a = .ok r) (h' : Metar.new db' clock' code' a' = .ok r')
    (p p' : ChangePeriod) (hp : p ∈ r.weatherTrends.list) (hp' : p' ∈ r'.weatherTrends.list)
    (text text' : PyStr) (ht : p.code = some text) (ht' : p'.code = some text')
    (hsub : (bodyGroups text').Sublist (bodyGroups text)) (hu : p.unparsed = []) :
    p'.unparsed = [] ∧ ∃ c c', Decodes ChangePeriod.handlers (bodyGroups text) c ∧
      Decodes ChangePeriod.handlers (bodyGroups text') c' ∧
      (withKinds trendOrder c').Sublist (withKinds trendOrder c) ∧ ForecastLess 3 c c' p.core p'.core := by
  have e : ChangePeriod.handlers.map Handler.regexp = trendOrder.map TrendGroupKind.pattern := rfl
  obtain ⟨-, hl⟩ := C08_metar_unparsed db clock code a r h
  obtain ⟨-, hl'⟩ := C08_metar_unparsed db' clock' code' a' r' h'
  obtain ⟨_, e1, l1⟩ := hl p hp
  obtain ⟨_, e2, l2⟩ := hl' p' hp'
  rw [ht] at e1
  rw [ht'] at e2
  cases e1
  cases e2
  change Leaves _ (bodyGroups text) _ at l1
  change Leaves _ (bodyGroups text') _ at l2
  rw [hu] at l1
  obtain ⟨c, hc⟩ : ∃ c, Decodes ChangePeriod.handlers (bodyGroups text) c := ⟨_, (decodes_iff _ _ _).2 rfl⟩
  obtain ⟨c', hc'⟩ : ∃ c, Decodes ChangePeriod.handlers (bodyGroups text') c := ⟨_, (decodes_iff _ _ _).2 rfl⟩
  obtain ⟨ind, p1, -, ho, -, -, q, -, hn⟩ := Metar.trend_decodes h hp ht hc
  obtain ⟨ind', p1', -, -, -, -, q', -, -⟩ := Metar.trend_decodes h' hp' ht' hc'
  have hf : FirstOfKind trendOrder TrendGroupKind.pattern [] c := by
    intro x hx j k _ _ _ hm
    exact (C79_trend x.1 (hn x.1 x.2 hx)).2 _ c x.2 k hc hx hm
  obtain ⟨hun, d', hd, -, hk⟩ := decodes_leftOut (head := []) (c0 := []) (un := []) e hsub
    ((decodes_iff _ _ _).2 rfl) hc hc' ⟨_, assign_length _ 0 _, assign_firstApplicable _ _, rfl⟩ l1 l2 hf
  rw [List.nil_append] at hd
  subst hd
  have sub : ∀ (lo hi : Nat) (K : TrendGroupKind), (∀ j ∈ List.range' lo (hi + 1 - lo), trendOrder[j]? = some K) →
      (∀ j ∈ List.range 12, trendOrder[j]? = some K → lo ≤ j ∧ j ≤ hi) →
      (taken c' lo hi).Sublist (taken c lo hi) :=
    fun lo hi K h1 h2 => taken_sublist (places_of h1 h2) hk
  exact ⟨hun, c, c', hc, hc', hk, {
    wind := FromGroup.less ho q.wind q'.wind (sub _ _ .wind (by decide) (by decide))
    prevailing := FromGroup.less ho q.prevailing q'.prevailing (sub _ _ .visibility (by decide) (by decide))
    weathers := FromGroups.less q.weathers.1 q'.weathers.1 (sub _ _ .weather (by decide) (by decide))
    clouds := FromGroups.less q.clouds.1 q'.clouds.1 (sub _ _ .cloud (by decide) (by decide)) }⟩

/-- C110, a change of a TAF, likewise. -/
theorem C110_change (db db' : Database) (clock clock' : Clock) (code code' : PyStr) (a a' : Args) (r r' : Taf)
    (h : Taf.new db clock code a = .ok r) (h' : Taf.new db' clock' code' a' = .ok r')
    (x x' : ChangeForecasted) (hx : x ∈ r.changes.list) (hx' : x' ∈ r'.changes.list)
    (hsub : (changeGroups x'.code).Sublist (changeGroups x.code)) (hu : x.unparsed = []) :
    x'.unparsed = [] ∧ ∃ c c', Decodes ChangeForecasted.handlers (changeGroups x.code) c ∧
      Decodes ChangeForecasted.handlers (changeGroups x'.code) c' ∧
      (withKinds changeOrder c').Sublist (withKinds changeOrder c) ∧ ForecastLess 2 c c' x.core x'.core := by
  have e : ChangeForecasted.handlers.map Handler.regexp = changeOrder.map ChangeGroupKind.pattern := rfl
  have l1 : Leaves ChangeForecasted.handlers (changeGroups x.code) x.unparsed :=
    (C08_taf_unparsed db clock code a r h).2 x hx
  have l2 : Leaves ChangeForecasted.handlers (changeGroups x'.code) x'.unparsed :=
    (C08_taf_unparsed db' clock' code' a' r' h').2 x' hx'
  rw [hu] at l1
  obtain ⟨c, hc⟩ : ∃ c, Decodes ChangeForecasted.handlers (changeGroups x.code) c := ⟨_, (decodes_iff _ _ _).2 rfl⟩
  obtain ⟨c', hc'⟩ : ∃ c, Decodes ChangeForecasted.handlers (changeGroups x'.code) c :=
    ⟨_, (decodes_iff _ _ _).2 rfl⟩
  obtain ⟨p1, ho, -, -, q, -, hn⟩ := Taf.change_decodes h hx hc
  obtain ⟨p1', -, -, -, q', -, -⟩ := Taf.change_decodes h' hx' hc'
  have hf : FirstOfKind changeOrder ChangeGroupKind.pattern [] c := by
    intro y hy j k _ _ _ hm
    exact (C79_change y.1 (hn y.1 y.2 hy)).2 _ c y.2 k hc hy hm
  obtain ⟨hun, d', hd, -, hk⟩ := decodes_leftOut (head := []) (c0 := []) (un := []) e hsub
    ((decodes_iff _ _ _).2 rfl) hc hc' ⟨_, assign_length _ 0 _, assign_firstApplicable _ _, rfl⟩ l1 l2 hf
  rw [List.nil_append] at hd
  subst hd
  have sub : ∀ (lo hi : Nat) (K : ChangeGroupKind), (∀ j ∈ List.range' lo (hi + 1 - lo), changeOrder[j]? = some K) →
      (∀ j ∈ List.range 11, changeOrder[j]? = some K → lo ≤ j ∧ j ≤ hi) →
      (taken c' lo hi).Sublist (taken c lo hi) :=
    fun lo hi K h1 h2 => taken_sublist (places_of h1 h2) hk
  exact ⟨hun, c, c', hc, hc', hk, {
    wind := FromGroup.less ho q.wind q'.wind (sub _ _ .wind (by decide) (by decide))
    prevailing := FromGroup.less ho q.prevailing q'.prevailing (sub _ _ .visibility (by decide) (by decide))
    weathers := FromGroups.less q.weathers.1 q'.weathers.1 (sub _ _ .weather (by decide) (by decide))
    clouds := FromGroups.less q.clouds.1 q'.clouds.1 (sub _ _ .cloud (by decide) (by decide)) }⟩

/-! ### Instances -/

/-- A trend and a change, of which wind, weather and a cloud are left out. -/
example : (match
      Metar.new sampleDb sampleClock py!"METAR SKBO 151200Z TEMPO FM1230 09012KT 3000 TSRA BR FEW010 BKN020CB" {},
      Metar.new sampleDb sampleClock py!"METAR SKBO 151200Z TEMPO FM1230 3000 BR BKN020CB" {},
      Taf.new sampleDb sampleClock py!"TAF SKBO 151200Z 1512/1612 TEMPO 1512/1516 09012KT 3000 TSRA BR FEW010 BKN020CB" {},
      Taf.new sampleDb sampleClock py!"TAF SKBO 151200Z 1512/1612 TEMPO 1512/1516 3000 BR BKN020CB" {} with
    | .ok r, .ok r', .ok t, .ok t' =>
      (match r.weatherTrends.list, r'.weatherTrends.list, t.changes.list, t'.changes.list with
      | [p], [p'], [x], [x'] => decide ((p.unparsed = [] ∧ x.unparsed = []) ∧
          p'.core.prevailing = p.core.prevailing ∧ p'.core.wind ≠ p.core.wind ∧ p'.core.wind = MetarWind.none ∧
          p'.core.weathers.list = p.core.weathers.list.drop 1 ∧ p'.core.clouds.list = p.core.clouds.list.drop 1 ∧
          x'.core.prevailing = x.core.prevailing ∧ x'.core.wind ≠ x.core.wind ∧
          x'.core.weathers.list = x.core.weathers.list.drop 1 ∧ x'.core.clouds.list = x.core.clouds.list.drop 1)
      | _, _, _, _ => false)
    | _, _, _, _ => false) = true := by decide +kernel

/-- `FirstOfKind`, computed. -/
def firstOfKindB {κ : Type} [DecidableEq κ] (ks : List κ) (p : κ → RE) (c0 d : List (PyStr × Nat)) : Bool :=
  d.all fun x => (List.range x.2).all fun j => match ks[j]? with
    | some k => !(c0.all fun y => decide (y.2 < j)) || !((p k).match x.1).isSome || decide (ks[x.2]? = some k)
    | none => true

theorem firstOfKindB_sound {κ : Type} [DecidableEq κ] {ks : List κ} {p : κ → RE} {c0 d : List (PyStr × Nat)}
    (h : firstOfKindB ks p c0 d = true) : FirstOfKind ks p c0 d := by
  intro x hx j k hj h0 hk ⟨m, hm⟩
  have := List.all_eq_true.1 (List.all_eq_true.1 h x hx) j (List.mem_range.2 hj)
  simp only [hk, hm, Option.isSome_some, Bool.not_true, Bool.or_false, Bool.or_eq_true, Bool.not_eq_true',
    decide_eq_true_eq] at this
  rcases this with h1 | h1
  · rw [← Bool.not_eq_true, List.all_eq_true] at h1
    exact absurd (fun y hy => by simpa using h0 y hy) h1
  · exact h1

/-- A METAR with every kind of group, read completely. Behind type, station, time and AUTO each group is of the
first kind that accepts it, thunderstorm with rain among them, though TSRA might be a station. -/
def wholeBody : List PyStr :=
  [py!"METAR", py!"SKBO", py!"151200Z", py!"AUTO", py!"09012KT", py!"060V120", py!"3000", py!"R07/0300", py!"R25/0500N",
   py!"TSRA", py!"BR", py!"FEW010", py!"BKN020CB", py!"12/10", py!"Q1013", py!"RERA", py!"WS_R07", py!"W15/S3",
   py!"R13/450293"]

def wholeDecoded : List (PyStr × Nat) :=
  consumed wholeBody (assign (Metar.handlers sampleDb (sampleClock 2) {}) 0 wholeBody)

example : (leftover wholeBody (assign (Metar.handlers sampleDb (sampleClock 2) {}) 0 wholeBody) = [] ∧
      wholeDecoded.map (·.2) = [0, 1, 2, 3, 4, 5, 6, 8, 9, 11, 12, 14, 15, 18, 19, 21, 22, 25, 26]) ∧
    firstOfKindB metarOrder MetarKind.pattern (wholeDecoded.take 4) (wholeDecoded.drop 4) = true ∧
    firstOfKindB metarOrder MetarKind.pattern (wholeDecoded.take 3) (wholeDecoded.drop 3) = true ∧
    firstOfKindB metarOrder MetarKind.pattern [] wholeDecoded = false := by decide +kernel

/-- Wind, visibility, the first range, one weather and the first cloud are left out. -/
example : (match
      Metar.new sampleDb sampleClock py!"METAR SKBO 151200Z 09012KT 3000 R07/0300 R25/0500N TSRA BR FEW010 BKN020CB Q1013" {},
      Metar.new sampleDb sampleClock py!"METAR SKBO 151200Z R25/0500N TSRA BKN020CB Q1013" {} with
    | .ok r, .ok r' => decide (r'.core.wind = MetarWind.none ∧ r'.core.prevailing = Visibility.none ∧
        r'.runwayRanges.list = r.runwayRanges.list.drop 1 ∧ r'.core.weathers.list = r.core.weathers.list.take 1 ∧
        r'.core.clouds.list = r.core.clouds.list.drop 1 ∧ r'.pressure = r.pressure ∧ r.pressure ≠ MetarPressure.none)
    | _, _ => false) = true := by decide +kernel

/-- The hypotheses of `C110_metar_text`: wind, visibility and cloud are left out, with a trend and a remark. -/
example : (∀ x ∈ [py!"METAR", py!"SKBO", py!"151200Z"] ++ [py!"09012KT", py!"3000", py!"TSRA", py!"BKN020CB", py!"Q1013"],
      Unbarred x ∧ ¬ Opens metarWords x ∧ Loose x) ∧
    (∀ p ∈ [(py!"TEMPO", [py!"2000"])], Part trendWords metarWords p) ∧
    (∀ p ∈ some (py!"RMK", [py!"A2992"]), Part [py!"RMK"] metarWords p) ∧
    Admits MetarKind.time.pattern py!"151200Z" ∧
    [py!"TSRA", py!"Q1013"].Sublist [py!"09012KT", py!"3000", py!"TSRA", py!"BKN020CB", py!"Q1013"] ∧
    (∀ c, Decodes (Metar.handlers sampleDb (sampleClock 2) {})
        ([py!"METAR", py!"SKBO", py!"151200Z"] ++ [py!"09012KT", py!"3000", py!"TSRA", py!"BKN020CB", py!"Q1013"]) c →
      ∀ x ∈ c, x.2 ≠ 7 ∧ (Bare x.1 → x.2 ≠ 19 ∧ x.2 ≠ 20)) ∧
    (match
      Metar.new sampleDb sampleClock py!"METAR SKBO 151200Z 09012KT 3000 TSRA BKN020CB Q1013 TEMPO 2000 RMK A2992" {},
      Metar.new sampleDb sampleClock py!"METAR SKBO 151200Z TSRA Q1013 TEMPO 2000 RMK A2992" {} with
    | .ok r, .ok r' => decide (r.unparsed = [] ∧ r'.unparsed = [] ∧ r'.core.clouds.list = [] ∧
        r'.core.weathers.list = r.core.weathers.list ∧ r'.pressure = r.pressure)
    | _, _ => false) = true := by
  refine ⟨?_, ?_, ?_, admits_of (by decide +kernel), by decide, ?_, by decide +kernel⟩
  · intro x hx
    refine ⟨?_, ?_, ?_⟩
    · revert x; unfold Unbarred Word; decide +kernel
    · revert x; decide +kernel
    · apply loose_of
      · revert x; decide +kernel
      · revert x; decide +kernel
  · unfold Part Unbarred Word
    decide +kernel
  · rintro p ⟨rfl⟩
    unfold Part Unbarred Word
    decide +kernel
  · intro c hc x hx
    rw [(decodes_iff _ _ _).1 hc] at hx
    have key : ∀ x ∈ consumed
        ([py!"METAR", py!"SKBO", py!"151200Z"] ++ [py!"09012KT", py!"3000", py!"TSRA", py!"BKN020CB", py!"Q1013"])
        (assign (Metar.handlers sampleDb (sampleClock 2) {}) 0
          ([py!"METAR", py!"SKBO", py!"151200Z"] ++ [py!"09012KT", py!"3000", py!"TSRA", py!"BKN020CB", py!"Q1013"])),
        x.2 ≠ 7 ∧ (x.2 = 19 → x.1 = py!"Q1013") ∧ x.2 ≠ 20 := by decide +kernel
    obtain ⟨k1, k2, k3⟩ := key x hx
    refine ⟨k1, fun hb => ⟨fun e => ?_, k3⟩⟩
    rw [k2 e] at hb
    rcases hb with ⟨h, -⟩ | h
    · exact absurd h (by decide)
    · exact absurd h (by decide)

/-- The hypotheses of `C110_taf_text`: wind and weather are left out, with a change. -/
example :
    let head := [py!"SKBO", py!"151200Z", py!"1512/1612"]
    let tail := [py!"23015KT", py!"9999", py!"RA", py!"FEW010"]
    let rest := [py!"PROB30", py!"TEMPO", py!"1512/1514", py!"2000"]
    (∀ x ∈ py!"TAF" :: (head ++ tail) ++ rest, Unbarred x ∧ 95 ∉ x) ∧
    (∀ x ∈ head ++ tail ++ rest, ¬ py!"TAF" <:+ x) ∧
    (∀ x ∈ py!"TAF" :: (head ++ tail), Loose x ∧ ∀ v, isProb x v = false) ∧
    (∀ x ∈ head.tail ++ tail, ¬ Opens tafWords x) ∧
    joinProbs 5 rest = [(py!"PROB30_TEMPO", [py!"1512/1514", py!"2000"])].flatMap (fun p => p.1 :: p.2) ∧
    (∀ p ∈ [(py!"PROB30_TEMPO", [py!"1512/1514", py!"2000"])], Opens tafWords p.1 ∧ ∀ w ∈ p.2, ¬ Opens tafWords w) ∧
    (∀ c, Decodes (Taf.handlers sampleDb (sampleClock 1) {}) (py!"TAF" :: head) c →
      (∃ t, (t, 3) ∈ c) ∧ ∃ v, (v, 5) ∈ c) ∧
    (∀ c, Decodes (Taf.handlers sampleDb (sampleClock 1) {}) (py!"TAF" :: (head ++ tail)) c →
      ∀ x ∈ c, (x.2 = 8 → ∀ k ∈ [TafKind.time, .valid, .wind], ¬ Admits k.pattern x.1) ∧
        (9 ≤ x.2 ∧ x.2 ≤ 11 → ¬ Admits TafKind.visibility.pattern x.1)) ∧
    [py!"9999", py!"FEW010"].Sublist tail ∧
    (match
      Taf.new sampleDb sampleClock py!"TAF SKBO 151200Z 1512/1612 23015KT 9999 RA FEW010 PROB30 TEMPO 1512/1514 2000" {},
      Taf.new sampleDb sampleClock py!"TAF SKBO 151200Z 1512/1612 9999 FEW010 PROB30 TEMPO 1512/1514 2000" {} with
    | .ok r, .ok r' => decide (r.unparsed = [] ∧ r'.unparsed = [] ∧ r'.core.weathers.list = [] ∧
        r'.core.clouds.list = r.core.clouds.list ∧ r'.valid = r.valid ∧ r'.changes.list.length = 1)
    | _, _ => false) = true := by
  have no : ∀ {k : TafKind} {w : PyStr}, (k.pattern.match w).isNone = true → ¬ Admits k.pattern w := by
    rintro k w h ⟨m, hm⟩
    rw [hm] at h
    cases h
  refine ⟨?_, ?_, ?_, ?_, ?_, ?_, ?_, ?_, by decide, by decide +kernel⟩
  · unfold Unbarred Word; decide +kernel
  · decide +kernel
  · intro x hx
    refine ⟨loose_of ?_ ?_, not_prob_of ?_⟩ <;> revert x <;> decide +kernel
  · decide +kernel
  · decide +kernel
  · decide +kernel
  · intro c hc
    rw [(decodes_iff _ _ _).1 hc]
    exact ⟨⟨py!"151200Z", by decide +kernel⟩, ⟨py!"1512/1612", by decide +kernel⟩⟩
  · intro c hc x hx
    rw [(decodes_iff _ _ _).1 hc] at hx
    have key : ∀ x ∈ consumed
        (py!"TAF" :: ([py!"SKBO", py!"151200Z", py!"1512/1612"] ++ [py!"23015KT", py!"9999", py!"RA", py!"FEW010"]))
        (assign (Taf.handlers sampleDb (sampleClock 1) {}) 0
          (py!"TAF" :: ([py!"SKBO", py!"151200Z", py!"1512/1612"] ++ [py!"23015KT", py!"9999", py!"RA", py!"FEW010"]))),
        (x.2 = 8 → ∀ k ∈ [TafKind.time, .valid, .wind], (k.pattern.match x.1).isNone = true) ∧
        (9 ≤ x.2 ∧ x.2 ≤ 11 → (TafKind.visibility.pattern.match x.1).isNone = true) := by decide +kernel
    obtain ⟨k1, k2⟩ := key x hx
    exact ⟨fun h k hk => no (k1 h k hk), fun h => no (k2 h)⟩

/-- The condition is needed: a minimum visibility may be a visibility, and becomes one when the first is left out. -/
theorem C110_needs : ∃ r r', Metar.new sampleDb sampleClock py!"METAR SKBO 151200Z 3000 1500NE" {} = .ok r ∧
    Metar.new sampleDb sampleClock py!"METAR SKBO 151200Z 1500NE" {} = .ok r' ∧
    r.unparsed = [] ∧ r'.core.prevailing ≠ r.core.prevailing ∧ r'.core.prevailing ≠ Visibility.none := by
  have key : (match Metar.new sampleDb sampleClock py!"METAR SKBO 151200Z 3000 1500NE" {},
        Metar.new sampleDb sampleClock py!"METAR SKBO 151200Z 1500NE" {} with
      | .ok r, .ok r' => decide (r.unparsed = [] ∧ r'.core.prevailing ≠ r.core.prevailing ∧
          r'.core.prevailing ≠ Visibility.none)
      | _, _ => false) = true := by decide +kernel
  revert key
  cases Metar.new sampleDb sampleClock py!"METAR SKBO 151200Z 3000 1500NE" {} with
  | error e => intro key; cases key
  | ok r =>
    cases Metar.new sampleDb sampleClock py!"METAR SKBO 151200Z 1500NE" {} with
    | error e => intro key; cases key
    | ok r' => intro key; exact ⟨r, r', rfl, rfl, of_decide_eq_true key⟩

/-- A TAF read completely, in which each group, from the first on, is of the first kind that accepts it. -/
example : (let b := [py!"TAF", py!"AMD", py!"SKBO", py!"151200Z", py!"1512/1612", py!"23015KT", py!"9999", py!"RA", py!"FEW010",
        py!"TX10/1518Z", py!"TNM01/1606Z"]
    let asg := assign (Taf.handlers sampleDb (sampleClock 1) {}) 0 b
    decide (leftover b asg = []) && firstOfKindB tafOrder TafKind.pattern [] (consumed b asg)) = true := by
  decide +kernel

end Verif.Props
