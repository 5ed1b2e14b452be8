import Verif.Lemmas.Replace
import Verif.Props.Ambiguity
import Verif.Props.Local
import Verif.Props.Own
import Verif.Props.Report
import Verif.Props.UnknownWord

/-
C109: a group replaced by another of its kind changes its own attribute only.
-/

namespace Verif.Props
open Spec

/-- C109, any section. A group is replaced by one that the same patterns accept. If it was decoded, the new one
is decoded at the same place and the groups that are not decoded are the same; otherwise the decoded groups
are the same, and the new one takes its place among those that are not. -/
theorem C109_section {σ : Type} (hs : List (Handler σ)) (w w' : PyStr) (pre post : List PyStr)
    (ha : Alike (hs.map Handler.regexp) w w') (c c' : List (PyStr × Nat)) (un un' : List PyStr)
    (hc : Decodes hs (pre ++ w :: post) c) (hc' : Decodes hs (pre ++ w' :: post) c')
    (hu : Leaves hs (pre ++ w :: post) un) (hu' : Leaves hs (pre ++ w' :: post) un') :
    (∃ p i q, c = p ++ (w, i) :: q ∧ c' = p ++ (w', i) :: q ∧ un = un') ∨
    (c = c' ∧ ∃ p q, un = p ++ w :: q ∧ un' = p ++ w' :: q) :=
  decodes_replace (accepts_alike (ks := hs.map Handler.regexp) (p := id) (by simp) (by simpa using ha)) hc hc' hu hu'

/-! ### METAR -/

/-- What two METARs have in common, from the places at which they have the same groups. -/
theorem metarBut_of {db : Database} {clock : Clock} {code code' : PyStr} {a : Args} {r r' : Metar}
    (h : Metar.new db clock code a = .ok r) (h' : Metar.new db clock code' a = .ok r')
    {c c' : List (PyStr × Nat)}
    (hc : Decodes (Metar.handlers db (clock 2) a) (metarGroups r.body) c)
    (hc' : Decodes (Metar.handlers db (clock 2) a) (metarGroups r'.body) c') {o : Option MetarKind}
    (same : ∀ lo hi K, (∀ j ∈ List.range' lo (hi + 1 - lo), metarOrder[j]? = some K) → o ≠ some K →
      SameAt c c' lo hi)
    (one : ∀ lo hi K, (∀ j ∈ List.range 27, metarOrder[j]? = some K → lo ≤ j ∧ j ≤ hi) → o = some K →
      ∃ p w w' i q, c = p ++ (w, i) :: q ∧ c' = p ++ (w', i) :: q ∧ lo ≤ i ∧ i ≤ hi) : MetarBut o r r' := by
  have own := C99_metar db db clock clock code code' a a r r' h h' c c' hc hc'
  have st := C99_metar_station db db clock clock code code' a a r r' h h' c c' hc hc'
  obtain ⟨t, -, -, e, -⟩ := Metar.new_decodes h hc
  obtain ⟨t', -, -, e', -⟩ := Metar.new_decodes h' hc'
  have off : ∀ {α : Type} {lo hi : Nat} {K : MetarKind} {re : RE} {f : Match → Except Exc α} {x x' : List α},
      FromGroups c lo hi re f x → FromGroups c' lo hi re f x' →
      (∀ j ∈ List.range 27, metarOrder[j]? = some K → lo ≤ j ∧ j ≤ hi) → o = some K → OneOff x x' := by
    intro α lo hi K re f x x' h1 h2 h3 h4
    obtain ⟨p, w, w', i, q, rfl, rfl, l1, l2⟩ := one lo hi K h3 h4
    exact FromGroups.oneOff h1 h2 l1 l2
  exact {
    type := fun ho => own.type (same _ _ _ (by decide) ho)
    station := fun ho => st.1 rfl (same _ _ _ (by decide) ho)
    time := fun ho => st.2 rfl rfl rfl (same _ _ _ (by decide) ho)
    modifier := fun ho => own.modifier (same _ _ _ (by decide) ho)
    wind := fun ho => own.wind (same _ _ _ (by decide) ho)
    windVariation := fun ho => own.windVariation (same _ _ _ (by decide) ho)
    prevailing := fun ho => own.prevailing (same _ _ _ (by decide) ho)
    minimum := fun ho => own.minimum (same _ _ _ (by decide) ho)
    ranges := fun ho => own.ranges (same _ _ _ (by decide) ho)
    range := fun ho => off e.ranges.1 e'.ranges.1 (by decide) ho
    weathers := fun ho => own.weathers (same _ _ _ (by decide) ho)
    weather := fun ho => off e.weathers.1 e'.weathers.1 (by decide) ho
    clouds := fun ho => own.clouds (same _ _ _ (by decide) ho)
    cloud := fun ho => off e.clouds.1 e'.clouds.1 (by decide) ho
    temperatures := fun ho => own.temperatures (same _ _ _ (by decide) ho)
    pressure := fun ho => own.pressure (same _ _ _ (by decide) ho)
    recent := fun ho => own.recent (same _ _ _ (by decide) ho)
    windshears := fun ho => own.windshears (same _ _ _ (by decide) ho)
    windshear := fun ho => off e.windshears.1 e'.windshears.1 (by decide) ho
    sea := fun ho => own.sea (same _ _ _ (by decide) ho)
    runwayState := fun ho => own.runwayState (same _ _ _ (by decide) ho) }

/-- C109, METAR. In the body of a report one group is replaced by another that the same patterns accept. Then the
two reports agree on everything but the attribute of one kind of group, which accepts both (or on everything, if
the group is not decoded). With the same trend section and unless it is the time that was replaced, the trends
are the same, and so are the groups not decoded, unless the replaced one is among them. -/
theorem C109_metar (db : Database) (clock : Clock) (code code' : PyStr) (a : Args) (r r' : Metar)
    (w w' : PyStr) (pre post : List PyStr)
    (h : Metar.new db clock code a = .ok r) (h' : Metar.new db clock code' a = .ok r')
    (hb : metarGroups r.body = pre ++ w :: post) (hb' : metarGroups r'.body = pre ++ w' :: post)
    (ha : Alike (metarOrder.map MetarKind.pattern) w w') :
    ∃ o, MetarBut o r r' ∧ (∀ k, o = some k → Admits k.pattern w ∧ Admits k.pattern w') ∧
      (r.trend = r'.trend → o ≠ some .time → r.weatherTrends.list = r'.weatherTrends.list ∧
        (o ≠ none → r.unparsed = r'.unparsed) ∧ (o = none → OneOff r.unparsed r'.unparsed)) := by
  have e : (Metar.handlers db (clock 2) a).map Handler.regexp = metarOrder.map MetarKind.pattern := rfl
  obtain ⟨⟨un, hu, eu⟩, -⟩ := C08_metar_unparsed db clock code a r h
  obtain ⟨⟨un', hu', eu'⟩, -⟩ := C08_metar_unparsed db clock code' a r' h'
  obtain ⟨c, hc⟩ : ∃ c, Decodes (Metar.handlers db (clock 2) a) (metarGroups r.body) c :=
    ⟨_, (decodes_iff _ _ _).2 rfl⟩
  obtain ⟨c', hc'⟩ : ∃ c, Decodes (Metar.handlers db (clock 2) a) (metarGroups r'.body) c :=
    ⟨_, (decodes_iff _ _ _).2 rfl⟩
  have trends : ∀ {o}, MetarBut o r r' → r.trend = r'.trend → o ≠ some .time →
      r.weatherTrends.list = r'.weatherTrends.list := by
    intro o but ht ho
    exact (((C77_metar rfl rfl h h').2 (by rw [but.time ho])).2 ht.symm).symm
  have hd := hc
  have hd' := hc'
  rw [hb] at hd
  rw [hb'] at hd'
  change Leaves _ (metarGroups r.body) un at hu
  change Leaves _ (metarGroups r'.body) un' at hu'
  rw [hb] at hu
  rw [hb'] at hu'
  rcases decodes_replace (accepts_alike e ha) hd hd' hu hu' with ⟨p, i, q, ec, ec', rfl⟩ | ⟨rfl, p, q, rfl, rfl⟩
  · obtain ⟨k, hk, hw⟩ := taken_kind e hc (g := w) (i := i) (by simp [ec])
    obtain ⟨k', hk', hw'⟩ := taken_kind e hc' (g := w') (i := i) (by simp [ec'])
    obtain rfl : k = k' := Option.some.inj (hk.symm.trans hk')
    have hi : i < 27 := (List.getElem?_eq_some_iff.1 hk).1
    have but : MetarBut (some k) r r' := by
      refine metarBut_of h h' hc hc' ?_ ?_
      · intro lo hi K hr hK
        rw [ec, ec']
        refine taken_replace.1 fun ⟨h1, h2⟩ => hK ?_
        rw [← hk]
        exact hr i (List.mem_range'_1.2 ⟨h1, by omega⟩)
      · rintro lo hi K hr hK
        rw [hK] at hk
        have := hr i (List.mem_range.2 ‹_›) hk
        exact ⟨p, w, w', i, q, ec, ec', this.1, this.2⟩
    refine ⟨some k, but, ?_, fun ht ho => ⟨trends but ht ho, ?_, nofun⟩⟩
    · rintro _ ⟨⟩
      exact ⟨hw, hw'⟩
    · intro _
      rw [eu, eu', trends but ht ho]
  · have but : MetarBut none r r' := metarBut_of h h' hc hc' (fun _ _ _ _ _ => rfl) nofun
    refine ⟨none, but, nofun, fun ht ho => ⟨trends but ht ho, nofun, fun _ => ?_⟩⟩
    rw [eu, eu', trends but ht ho, List.append_assoc, List.append_assoc]
    exact ⟨p, w, w', _, rfl, rfl⟩

/-- C109, METAR. Two words of the same kind that are not shared with another kind are accepted by the same
patterns. -/
theorem C109_metar_alike (k : MetarKind) (w w' : PyStr) (hn : 10 ∉ w) (hn' : 10 ∉ w')
    (hw : Admits k.pattern w) (hw' : Admits k.pattern w')
    (hs : ∀ k', ¬ SharedMetar k k' w ∧ ¬ SharedMetar k' k w)
    (hs' : ∀ k', ¬ SharedMetar k k' w' ∧ ¬ SharedMetar k' k w') :
    Alike (metarOrder.map MetarKind.pattern) w w' := by
  have key : ∀ {w : PyStr} {k' : MetarKind}, 10 ∉ w → Admits k.pattern w →
      (∀ k', ¬ SharedMetar k k' w ∧ ¬ SharedMetar k' k w) → Admits k'.pattern w → k = k' := by
    intro w k' hn hw hs h
    rcases (C79_metar k k' w hn).1 hw h with e | e | e
    · exact e
    · exact ((hs k').1 e).elim
    · exact ((hs k').2 e).elim
  intro re hre
  obtain ⟨k', -, rfl⟩ := List.mem_map.1 hre
  constructor
  · intro h
    obtain rfl := key hn hw hs h
    exact hw'
  · intro h
    obtain rfl := key hn' hw' hs' h
    exact hw

/-- C109, METAR. Any two words of one of these kinds can be exchanged for one another. -/
theorem C109_metar_kinds (k : MetarKind) (w w' : PyStr) (hn : 10 ∉ w) (hn' : 10 ∉ w')
    (hk : k ∈ [.type, .time, .wind, .variation, .range, .temperatures, .shear, .sea, .runway])
    (hw : Admits k.pattern w) (hw' : Admits k.pattern w') :
    Alike (metarOrder.map MetarKind.pattern) w w' := by
  have hs : ∀ w k', ¬ SharedMetar k k' w ∧ ¬ SharedMetar k' k w := by
    intro w k'
    refine ⟨fun h => ?_, fun h => ?_⟩ <;> cases h <;> exact absurd hk (by decide)
  exact C109_metar_alike k w w' hn hn' hw hw' (hs w) (hs w')

/-- C109, METAR, in words. A report is written with another word of one of these kinds: if both are read, they
agree on everything but the attribute of that kind; and, unless the word is the time, on the trends. -/
theorem C109_metar_text (db : Database) (clock : Clock) (a : Args) (k : MetarKind) (w w' : PyStr)
    (pre post : List PyStr) (trends : List (PyStr × List PyStr)) (remark : Option (PyStr × List PyStr))
    (hb : ∀ x ∈ w :: w' :: (pre ++ post), Unbarred x ∧ ¬ Opens metarWords x ∧ Loose x)
    (ht : ∀ p ∈ trends, Part trendWords metarWords p)
    (hr : ∀ p ∈ remark, Part [py!"RMK"] metarWords p)
    (hn : 10 ∉ w) (hn' : 10 ∉ w')
    (hk : k ∈ [.type, .time, .wind, .variation, .range, .temperatures, .shear, .sea, .runway])
    (hw : Admits k.pattern w) (hw' : Admits k.pattern w') (r r' : Metar)
    (h : Metar.new db clock (join [32] (metarText (pre ++ w :: post) trends remark)) a = .ok r)
    (h' : Metar.new db clock (join [32] (metarText (pre ++ w' :: post) trends remark)) a = .ok r') :
    (MetarBut (some k) r r' ∨ MetarBut none r r') ∧
    (k ≠ .time → r.weatherTrends.list = r'.weatherTrends.list) := by
  have hx : ∀ v, v = w ∨ v = w' → ∀ x ∈ pre ++ v :: post, Unbarred x ∧ ¬ Opens metarWords x ∧ Loose x := by
    intro v hv x hx
    apply hb
    simp only [List.mem_append, List.mem_cons] at hx ⊢
    rcases hx with h | h | h
    · simp [h]
    · subst h; rcases hv with h | h <;> simp [h]
    · simp [h]
  have sec : ∀ v, v = w ∨ v = w' → ∀ r : Metar,
      Metar.new db clock (join [32] (metarText (pre ++ v :: post) trends remark)) a = .ok r →
      metarGroups r.body = pre ++ v :: post ∧ r.trend = join [32] (trends.flatMap fun p => p.1 :: p.2) := by
    intro v hv r hr'
    have h1 := metarSections_text (pre ++ v :: post) trends remark (by simp)
      (fun x h => ⟨(hx v hv x h).1, (hx v hv x h).2.1⟩) ht hr
    have h2 := Metar.new_sections hr'
    rw [h1.1] at h2
    refine ⟨?_, h2.2.1.trans h1.2.2.1⟩
    rw [h2.1, h1.2.1]
    exact metarGroups_loose (by simp) (fun x h => (hx v hv x h).1.solid) fun x h => (hx v hv x h).2.2
  obtain ⟨g1, t1⟩ := sec w (.inl rfl) r h
  obtain ⟨g2, t2⟩ := sec w' (.inr rfl) r' h'
  obtain ⟨o, but, ho, htr⟩ := C109_metar db clock _ _ a r r' w w' pre post h h' g1 g2
    (C109_metar_kinds k w w' hn hn' hk hw hw')
  cases o with
  | none => exact ⟨.inr but, fun _ => (htr (t1.trans t2.symm) (by simp)).1⟩
  | some k' =>
    have hk' : k' = k := by
      rcases (C79_metar k k' w hn).1 hw (ho k' rfl).1 with e | e | e
      · exact e.symm
      · cases e <;> exact absurd hk (by decide)
      · cases e <;> exact absurd hk (by decide)
    subst hk'
    exact ⟨.inl but, fun hne => (htr (t1.trans t2.symm) (by simpa using hne)).1⟩

/-! ### TAF -/

theorem tafBut_of {db : Database} {clock : Clock} {code code' : PyStr} {a : Args} {r r' : Taf}
    (h : Taf.new db clock code a = .ok r) (h' : Taf.new db clock code' a = .ok r')
    {c c' : List (PyStr × Nat)}
    (hc : Decodes (Taf.handlers db (clock 1) a) (bodyGroups r.body) c)
    (hc' : Decodes (Taf.handlers db (clock 1) a) (bodyGroups r'.body) c') {o : Option TafKind}
    (same : ∀ lo hi K, (∀ j ∈ List.range' lo (hi + 1 - lo), tafOrder[j]? = some K) → o ≠ some K →
      SameAt c c' lo hi)
    (one : ∀ lo hi K, (∀ j ∈ List.range 20, tafOrder[j]? = some K → lo ≤ j ∧ j ≤ hi) → o = some K →
      ∃ p w w' i q, c = p ++ (w, i) :: q ∧ c' = p ++ (w', i) :: q ∧ lo ≤ i ∧ i ≤ hi) : TafBut o r r' := by
  have own := C99_taf db db clock clock code code' a a r r' h h' c c' hc hc'
  have st := C99_taf_station db db clock clock code code' a a r r' h h' c c' hc hc'
  obtain ⟨t, v, -, -, -, e, -⟩ := Taf.new_decodes h hc
  obtain ⟨t', v', -, -, -, e', -⟩ := Taf.new_decodes h' hc'
  have off : ∀ {α : Type} {lo hi : Nat} {K : TafKind} {re : RE} {f : Match → Except Exc α} {x x' : List α},
      FromGroups c lo hi re f x → FromGroups c' lo hi re f x' →
      (∀ j ∈ List.range 20, tafOrder[j]? = some K → lo ≤ j ∧ j ≤ hi) → o = some K → OneOff x x' := by
    intro α lo hi K re f x x' h1 h2 h3 h4
    obtain ⟨p, w, w', i, q, rfl, rfl, l1, l2⟩ := one lo hi K h3 h4
    exact FromGroups.oneOff h1 h2 l1 l2
  have time : o ≠ some .time → SameAt c c' 3 3 := fun ho => same _ _ _ (by decide) ho
  exact {
    type := fun ho => own.type (same _ _ _ (by decide) ho)
    modifier := fun ho => own.modifier (same _ _ _ (by decide) ho)
    station := fun ho => st.1 rfl (same _ _ _ (by decide) ho)
    time := fun ho => (st.2 rfl rfl rfl (time ho)).1
    missing := fun ho => own.missing (same _ _ _ (by decide) ho)
    valid := fun ho ht => (st.2 rfl rfl rfl (time ht)).2 (same _ _ _ (by decide) ho)
    cancelled := fun ho => own.cancelled (same _ _ _ (by decide) ho)
    wind := fun ho => own.wind (same _ _ _ (by decide) ho)
    prevailing := fun ho => own.prevailing (same _ _ _ (by decide) ho)
    weathers := fun ho => own.weathers (same _ _ _ (by decide) ho)
    weather := fun ho => off e.weathers.1 e'.weathers.1 (by decide) ho
    clouds := fun ho => own.clouds (same _ _ _ (by decide) ho)
    cloud := fun ho => off e.clouds.1 e'.clouds.1 (by decide) ho
    temperatures := fun ho ht =>
      own.temperatures (same _ _ _ (by decide) ho) (st.2 rfl rfl rfl (time ht)).1 }

/-- C109, TAF. The changes are the same unless time or valid period was replaced. -/
theorem C109_taf (db : Database) (clock : Clock) (code code' : PyStr) (a : Args) (r r' : Taf)
    (w w' : PyStr) (pre post : List PyStr)
    (h : Taf.new db clock code a = .ok r) (h' : Taf.new db clock code' a = .ok r')
    (hb : bodyGroups r.body = pre ++ w :: post) (hb' : bodyGroups r'.body = pre ++ w' :: post)
    (ha : Alike (tafOrder.map TafKind.pattern) w w') :
    ∃ o, TafBut o r r' ∧ (∀ k, o = some k → Admits k.pattern w ∧ Admits k.pattern w') ∧
      (r.changesCodes = r'.changesCodes → o ≠ some .time → o ≠ some .valid →
        r.changes.list = r'.changes.list ∧
        (o ≠ none → r.unparsed = r'.unparsed) ∧ (o = none → OneOff r.unparsed r'.unparsed)) := by
  have e : (Taf.handlers db (clock 1) a).map Handler.regexp = tafOrder.map TafKind.pattern := rfl
  obtain ⟨⟨un, hu, eu⟩, -⟩ := C08_taf_unparsed db clock code a r h
  obtain ⟨⟨un', hu', eu'⟩, -⟩ := C08_taf_unparsed db clock code' a r' h'
  obtain ⟨c, hc⟩ : ∃ c, Decodes (Taf.handlers db (clock 1) a) (bodyGroups r.body) c :=
    ⟨_, (decodes_iff _ _ _).2 rfl⟩
  obtain ⟨c', hc'⟩ : ∃ c, Decodes (Taf.handlers db (clock 1) a) (bodyGroups r'.body) c :=
    ⟨_, (decodes_iff _ _ _).2 rfl⟩
  have changes : ∀ {o}, TafBut o r r' → r.changesCodes = r'.changesCodes → o ≠ some .time →
      o ≠ some .valid → r.changes.list = r'.changes.list := by
    intro o but ht ho hv
    exact (((C77_taf rfl rfl h h').2 (but.valid hv ho).symm).2 ht.symm).symm
  have hd := hc
  have hd' := hc'
  rw [hb] at hd
  rw [hb'] at hd'
  change Leaves _ (bodyGroups r.body) un at hu
  change Leaves _ (bodyGroups r'.body) un' at hu'
  rw [hb] at hu
  rw [hb'] at hu'
  rcases decodes_replace (accepts_alike e ha) hd hd' hu hu' with ⟨p, i, q, ec, ec', rfl⟩ | ⟨rfl, p, q, rfl, rfl⟩
  · obtain ⟨k, hk, hw⟩ := taken_kind e hc (g := w) (i := i) (by simp [ec])
    obtain ⟨k', hk', hw'⟩ := taken_kind e hc' (g := w') (i := i) (by simp [ec'])
    obtain rfl : k = k' := Option.some.inj (hk.symm.trans hk')
    have hi : i < 20 := (List.getElem?_eq_some_iff.1 hk).1
    have but : TafBut (some k) r r' := by
      refine tafBut_of h h' hc hc' ?_ ?_
      · intro lo hi K hr hK
        rw [ec, ec']
        refine taken_replace.1 fun ⟨h1, h2⟩ => hK ?_
        rw [← hk]
        exact hr i (List.mem_range'_1.2 ⟨h1, by omega⟩)
      · rintro lo hi K hr hK
        rw [hK] at hk
        have := hr i (List.mem_range.2 ‹_›) hk
        exact ⟨p, w, w', i, q, ec, ec', this.1, this.2⟩
    refine ⟨some k, but, ?_, fun ht ho hv => ⟨changes but ht ho hv, ?_, nofun⟩⟩
    · rintro _ ⟨⟩
      exact ⟨hw, hw'⟩
    · intro _
      rw [eu, eu', changes but ht ho hv]
  · have but : TafBut none r r' := tafBut_of h h' hc hc' (fun _ _ _ _ _ => rfl) nofun
    refine ⟨none, but, nofun, fun ht ho hv => ⟨changes but ht ho hv, nofun, fun _ => ?_⟩⟩
    rw [eu, eu', changes but ht ho hv, List.append_assoc, List.append_assoc]
    exact ⟨p, w, w', _, rfl, rfl⟩

/-- C109, TAF. Any two words of one of these kinds can be exchanged for one another. (The pattern of the visibility
accepts every time and every valid period, as it does not ask for the end of the word.) -/
theorem C109_taf_kinds (k : TafKind) (w w' : PyStr) (hn : 10 ∉ w) (hn' : 10 ∉ w')
    (hk : k ∈ [.amendment, .time, .missing, .valid, .cancelled, .temperature])
    (hw : Admits k.pattern w) (hw' : Admits k.pattern w') :
    Alike (tafOrder.map TafKind.pattern) w w' := by
  have ht : ∀ x ∈ sharedTaf, (k = x.1 → (k = .time ∨ k = .valid) ∧ x.2.1 = .visibility) ∧ k ≠ x.2.1 := by
    clear hw hw'
    simp only [List.mem_cons, List.not_mem_nil, or_false] at hk
    rcases hk with rfl | rfl | rfl | rfl | rfl | rfl <;> decide
  have key : ∀ v v' : PyStr, 10 ∉ v → 10 ∉ v' → Admits k.pattern v → Admits k.pattern v' → ∀ k' : TafKind,
      Admits k'.pattern v → Admits k'.pattern v' := by
    intro v v' hv hv' h1 h2 k' h3
    rcases (C79_taf k k').1 ⟨v, hv, h1, h3⟩ with rfl | ⟨_, h⟩ | ⟨_, h⟩
    · exact h2
    · obtain ⟨e1, e2⟩ := (ht _ h).1 rfl
      simp only at e2
      subst e2
      rcases e1 with rfl | rfl
      · exact time_visibility h2 hv'
      · exact valid_visibility h2 hv'
    · exact ((ht _ h).2 rfl).elim
  intro re hre
  obtain ⟨k', -, rfl⟩ := List.mem_map.1 hre
  exact ⟨key w w' hn hn' hw hw' k', key w' w hn' hn hw' hw k'⟩

/-! ### Instances -/

/-- Another wind, with two trends and a remark: the hypotheses of `C109_metar_text`. -/
example : (∀ x ∈ py!"09012KT" :: py!"VRB02G15MPS" ::
        ([py!"METAR", py!"SKBO", py!"151200Z"] ++ [py!"9999", py!"FEW020", py!"ABC"]),
      Unbarred x ∧ ¬ Opens metarWords x ∧ Loose x) ∧
    (∀ p ∈ [(py!"TEMPO", [py!"2000"]), (py!"BECMG", [py!"NSC"])], Part trendWords metarWords p) ∧
    Admits MetarKind.wind.pattern py!"09012KT" ∧ Admits MetarKind.wind.pattern py!"VRB02G15MPS" ∧
    (match Metar.new sampleDb sampleClock py!"METAR SKBO 151200Z 09012KT 9999 FEW020 ABC TEMPO 2000 BECMG NSC"
          { truncate := false },
        Metar.new sampleDb sampleClock py!"METAR SKBO 151200Z VRB02G15MPS 9999 FEW020 ABC TEMPO 2000 BECMG NSC"
          { truncate := false } with
      | .ok r, .ok r' => decide (r.core.wind ≠ r'.core.wind ∧ r.time = r'.time ∧
          r.core.clouds.list = r'.core.clouds.list ∧ r.unparsed = r'.unparsed ∧ r.unparsed = [py!"ABC"])
      | _, _ => false) = true := by
  refine ⟨?_, ?_, admits_of (by decide +kernel), admits_of (by decide +kernel), by decide +kernel⟩
  · intro x hx
    refine ⟨?_, ?_, ?_⟩
    · revert x; unfold Unbarred Word; decide +kernel
    · revert x; decide +kernel
    · apply loose_of
      · revert x; decide +kernel
      · revert x; decide +kernel
  · unfold Part Unbarred Word
    decide +kernel

/-- One of three runway visual ranges: the others stay. -/
example : (match Metar.new sampleDb sampleClock py!"METAR SKBO 151200Z R07/0300 R25/0500N R13/P2000" {},
      Metar.new sampleDb sampleClock py!"METAR SKBO 151200Z R07/0300 R25R/M0050VP2000U R13/P2000" {} with
    | .ok r, .ok r' => decide (r.runwayRanges.list.length = 3 ∧ r'.runwayRanges.list.length = 3 ∧
        r.runwayRanges.list[0]? = r'.runwayRanges.list[0]? ∧ r.runwayRanges.list[1]? ≠ r'.runwayRanges.list[1]? ∧
        r.runwayRanges.list[2]? = r'.runwayRanges.list[2]?)
    | _, _ => false) = true := by decide +kernel

/-- Words of one kind need not be accepted by the same patterns: `9999` is a visibility as CAVOK is, but as it may
be a minimum visibility too, it is read as one after `3000` where CAVOK is not read. -/
example : (match Metar.new sampleDb sampleClock py!"METAR SKBO 151200Z 3000 CAVOK" { truncate := false },
      Metar.new sampleDb sampleClock py!"METAR SKBO 151200Z 3000 9999" { truncate := false } with
    | .ok r, .ok r' => decide (r.unparsed = [py!"CAVOK"] ∧ r'.unparsed = [] ∧
        r.minimumVisibility ≠ r'.minimumVisibility)
    | _, _ => false) = true := by decide +kernel

/-- TAF: another wind. Both words are accepted by the wind and, as its pattern does not ask for the end of the
word, by the visibility. -/
example : (tafOrder.map TafKind.pattern).all (fun re =>
      (re.match py!"23015KT").isSome == (re.match py!"09008G20MPS").isSome) = true ∧
    (match Taf.new sampleDb sampleClock py!"TAF SKBO 151200Z 1512/1612 23015KT 9999 TX10/1518Z BECMG 1514/1516 2000" {},
        Taf.new sampleDb sampleClock py!"TAF SKBO 151200Z 1512/1612 09008G20MPS 9999 TX10/1518Z BECMG 1514/1516 2000" {} with
      | .ok r, .ok r' => decide (r.core.wind ≠ r'.core.wind ∧ r.valid = r'.valid ∧
          r.core.prevailing = r'.core.prevailing ∧ r.maxTemperatures.list = r'.maxTemperatures.list ∧
          r.changesCodes = r'.changesCodes)
      | _, _ => false) = true := by decide +kernel

end Verif.Props
