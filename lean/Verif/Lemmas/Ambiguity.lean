import Verif.Lemmas.Clash
import Verif.Lemmas.TafApart

/-
The words that two kinds of groups share, for C79.
-/

namespace Verif
open Spec

/-- The kinds by the number of forms of their groups. -/
def metarRanked : List MetarKind :=
  [.station, .type, .sea, .minimum, .time, .shear, .modifier, .variation, .pressure, .runway, .cloud,
   .temperatures, .visibility, .wind, .range, .weather, .recent]

def metarPairs : List (MetarKind × MetarKind) :=
  [(.station, .modifier), (.station, .visibility), (.station, .weather), (.station, .cloud),
   (.station, .recent), (.minimum, .visibility), (.pressure, .visibility), (.minimum, .pressure)]

set_option maxRecDepth 100000 in
theorem metar_apartIn : apartIn MetarKind.pattern metarPairs metarRanked = true := by decide +kernel

def tafRanked : List TafKind :=
  [.station, .type, .amendment, .time, .missing, .valid, .cancelled, .temperature, .visibility, .cloud,
   .wind, .weather]

def tafPairs : List (TafKind × TafKind) :=
  [(.type, .visibility), (.station, .visibility), (.station, .weather), (.station, .cloud),
   (.time, .visibility), (.valid, .visibility), (.visibility, .wind), (.visibility, .weather)]

set_option maxRecDepth 100000 in
theorem taf_apartIn : apartIn TafKind.pattern tafPairs tafRanked = true := by decide +kernel

set_option maxRecDepth 100000 in
theorem trend_apartIn : apartIn TrendGroupKind.pattern []
    [.change, .period, .cloud, .visibility, .wind, .weather] = true := by decide +kernel

set_option maxRecDepth 100000 in
theorem change_apartIn : apartIn ChangeGroupKind.pattern []
    [.change, .valid, .cloud, .visibility, .wind, .weather] = true := by decide +kernel

/-! ### The words shared by two kinds of groups of a METAR -/

def four (k : CC) : List CC := [k, k, k, k]

theorem bare_of_shape {w : PyStr} (h : ∃ ks ∈ [four .digit, four (.one 47)], HasShape ks w) : Bare w := by
  obtain ⟨ks, hk, hs⟩ := h
  simp only [List.mem_cons, List.not_mem_nil, or_false] at hk
  rcases hk with rfl | rfl
  · have := HasShape.digits (n := 4) hs
    exact .inl ⟨this.2, this.1⟩
  · exact .inr ((hasShape_lit_iff (s := py!"////")).1 hs)

theorem bare_shape {w : PyStr} (h : Bare w) : ∃ ks ∈ [four .digit, four (.one 47)], HasShape ks w := by
  rcases h with h | rfl
  · exact ⟨four .digit, by simp, hasShape_digits h.2 h.1⟩
  · exact ⟨four (.one 47), by simp, hasShapeB_sound (by decide)⟩

theorem bare_noNl {w : PyStr} (h : Bare w) : 10 ∉ w := by
  rcases h with h | rfl
  · exact digits_noNl h.2
  · decide

/-- A word read as a station. -/
theorem station_chars {w : PyStr} (h : Admits MetarRegExp.STATION w) (hn : 10 ∉ w) : StationCode w := by
  obtain ⟨m, hm⟩ := h
  have hc : MetarRegExp.STATION.closed = true := by decide +kernel
  obtain ⟨x, hx, -, -, hs, -, -⟩ := RE.match_whole hc hm hn
  have : MetarRegExp.STATION.paths0.all (fun x => pathCls x.1 ==
      [.set [(65, 90)], .set [(65, 90), (48, 57)], .set [(65, 90), (48, 57)], .set [(65, 90), (48, 57)]]) = true := by
    decide +kernel
  have e := List.all_eq_true.1 this x hx
  rw [beq_iff_eq] at e
  rw [e] at hs
  obtain ⟨a, _, rfl, ha, b, _, rfl, hb, c, _, rfl, hc, d, _, rfl, hd, rfl⟩ := hs
  simp only [CC.mem, CC.ranges, inRanges, List.any_cons, List.any_nil, Bool.or_false, Bool.or_eq_true,
    Bool.and_eq_true, Nat.ble_eq] at ha hb hc hd
  refine ⟨rfl, ?_, ?_⟩
  · simp only [List.mem_cons, List.not_mem_nil, or_false]
    rintro x (rfl | rfl | rfl | rfl)
    · exact .inl ha
    all_goals assumption
  · intro x hx
    cases hx
    exact ha

/-- The shapes of the words shared by station and visibility. -/
def milesShapes : List (List CC) :=
  (py!"MP").flatMap fun s => [[.one s, .digit, .one 83, .one 77], [.one s, .digit, .one 75, .one 77],
    [.one s, .digit, .digit, .one 77], [.one s, .digit, .digit, .one 85]]

/-- The shapes of the minimum visibility. -/
def minimumShapes : List (List CC) :=
  [four .digit, four (.one 47)].flatMap fun b => [[], [.set [(78, 78), (83, 83), (69, 69), (87, 87)]],
    [.set [(78, 78), (83, 83), (69, 69), (87, 87)], .set [(69, 69), (87, 87)]]].map fun d => b ++ d

theorem shared_modifier {w : PyStr} (h : Admits MetarRegExp.STATION w) (h' : Admits MetarRegExp.MODIFIER w)
    (hn : 10 ∉ w) : SharedMetar .station .modifier w := by
  obtain ⟨ks, hk, hs⟩ := Admits.both (r := MetarRegExp.MODIFIER) (q := MetarRegExp.STATION)
    (but := [litShape py!"CORR", litShape py!"TEST", litShape py!"FINO", litShape py!"AUTO"])
    (by decide +kernel) h' h hn
  refine .modifier ?_
  simp only [List.mem_cons, List.not_mem_nil, or_false] at hk ⊢
  rcases hk with rfl | rfl | rfl | rfl
  · exact .inl (hasShape_lit_iff.1 hs)
  · exact .inr (.inl (hasShape_lit_iff.1 hs))
  · exact .inr (.inr (.inl (hasShape_lit_iff.1 hs)))
  · exact .inr (.inr (.inr (hasShape_lit_iff.1 hs)))

theorem eq_of_one {a c : Nat} (h : (CC.one a).mem c = true) : c = a := by
  have := CC.mem_range.1 h
  omega

theorem station_digit {w : PyStr} (h : StationCode w) {c : Nat} (hc : c ∈ w) (hd : isDigit c = true) :
    48 ≤ c ∧ c ≤ 57 := by
  rcases h.2.1 c hc with h | h
  · have : (CC.set [(65, 90)]).mem c = true := CC.mem_range.2 h
    have e : CC.test (.set [(65, 90)]) .digit = some false := by decide +kernel
    rw [← digit_mem, CC.test_sound e this] at hd
    cases hd
  · exact h

theorem shared_visibility {w : PyStr} (h : Admits MetarRegExp.STATION w)
    (h' : Admits MetarRegExp.VISIBILITY w) (hn : 10 ∉ w) : SharedMetar .station .visibility w := by
  have hc := station_chars h hn
  obtain ⟨ks, hk, hs⟩ := Admits.both (r := MetarRegExp.VISIBILITY) (q := MetarRegExp.STATION)
    (but := milesShapes) (by decide +kernel) h' h hn
  simp only [milesShapes, List.mem_flatMap] at hk
  obtain ⟨s, hm, hk⟩ := hk
  simp only [List.mem_cons, List.not_mem_nil, or_false] at hk
  rcases hk with rfl | rfl | rfl | rfl
  all_goals
    obtain ⟨a, _, rfl, ha, b, _, rfl, hb, c, _, rfl, hc', d, _, rfl, hd, rfl⟩ := hs
    cases eq_of_one ha
    cases eq_of_one hd
  · cases eq_of_one hc'
    exact .miles hm (station_digit hc (by simp) hb) (by decide)
  · cases eq_of_one hc'
    exact .miles hm (station_digit hc (by simp) hb) (by decide)
  · exact .units hm (station_digit hc (by simp) hb) (station_digit hc (by simp) hc') (by decide)
  · exact .units hm (station_digit hc (by simp) hb) (station_digit hc (by simp) hc') (by decide)

theorem shared_cloud {w : PyStr} (h : Admits MetarRegExp.STATION w) (h' : Admits MetarRegExp.CLOUD w)
    (hn : 10 ∉ w) : SharedMetar .station .cloud w := by
  obtain ⟨ks, hk, hs⟩ := Admits.both (r := MetarRegExp.CLOUD) (q := MetarRegExp.STATION)
    (but := [litShape py!"VVCB"]) (by decide +kernel) h' h hn
  cases List.mem_singleton.1 hk
  cases hasShape_lit_iff.1 hs
  exact .cloud

theorem shared_pressure {w : PyStr} (h : Admits MetarRegExp.VISIBILITY w)
    (h' : Admits MetarRegExp.PRESSURE w) (hn : 10 ∉ w) : SharedMetar .visibility .pressure w :=
  .pressure (bare_of_shape (Admits.both (r := MetarRegExp.PRESSURE) (q := MetarRegExp.VISIBILITY)
    (by decide +kernel) h' h hn))

theorem shared_pressure' {w : PyStr} (h : Admits MetarRegExp.MINIMUM_VISIBILITY w)
    (h' : Admits MetarRegExp.PRESSURE w) (hn : 10 ∉ w) : SharedMetar .minimum .pressure w :=
  .pressure' (bare_of_shape (Admits.both (r := MetarRegExp.MINIMUM_VISIBILITY) (q := MetarRegExp.PRESSURE)
    (by decide +kernel) h h' hn))

theorem visEnd_of_shape {d : PyStr} (h : ∃ ks ∈ [[], [CC.set [(78, 78), (83, 83), (69, 69), (87, 87)]],
    [CC.set [(78, 78), (83, 83), (69, 69), (87, 87)], .set [(69, 69), (87, 87)]]], HasShape ks d) :
    d ∈ visEnds := by
  obtain ⟨ks, hk, hs⟩ := h
  have h4 : ∀ c, (CC.set [(78, 78), (83, 83), (69, 69), (87, 87)]).mem c = true →
      c = 78 ∨ c = 83 ∨ c = 69 ∨ c = 87 := by
    intro c hc
    simp only [CC.mem, CC.ranges, inRanges, List.any_cons, List.any_nil, Bool.or_false, Bool.or_eq_true,
      Bool.and_eq_true, Nat.ble_eq] at hc
    omega
  have h2 : ∀ c, (CC.set [(69, 69), (87, 87)]).mem c = true → c = 69 ∨ c = 87 := by
    intro c hc
    simp only [CC.mem, CC.ranges, inRanges, List.any_cons, List.any_nil, Bool.or_false, Bool.or_eq_true,
      Bool.and_eq_true, Nat.ble_eq] at hc
    omega
  simp only [List.mem_cons, List.not_mem_nil, or_false] at hk
  rcases hk with rfl | rfl | rfl
  · cases hs; decide
  · obtain ⟨a, _, rfl, ha, rfl⟩ := hs
    rcases h4 a ha with rfl | rfl | rfl | rfl <;> decide
  · obtain ⟨a, _, rfl, ha, b, _, rfl, hb, rfl⟩ := hs
    rcases h4 a ha with rfl | rfl | rfl | rfl <;> rcases h2 b hb with rfl | rfl <;> decide

theorem shared_minimum {w : PyStr} (h : Admits MetarRegExp.VISIBILITY w)
    (h' : Admits MetarRegExp.MINIMUM_VISIBILITY w) (hn : 10 ∉ w) : SharedMetar .visibility .minimum w := by
  obtain ⟨ks, hk, hs⟩ := Admits.both (r := MetarRegExp.MINIMUM_VISIBILITY) (q := MetarRegExp.VISIBILITY)
    (but := minimumShapes) (by decide +kernel) h' h hn
  simp only [minimumShapes, List.mem_flatMap, List.mem_map] at hk
  obtain ⟨b, hb, d, hd, rfl⟩ := hk
  obtain ⟨v, e, rfl, hv, he⟩ := hs.append_inv
  exact .minimum (bare_of_shape ⟨b, hb, hv⟩) (visEnd_of_shape ⟨d, hd, he⟩)

theorem shared_weather {w : PyStr} (h : Admits MetarRegExp.STATION w) (h' : Admits MetarRegExp.WEATHER w)
    (hn : 10 ∉ w) : SharedMetar .station .weather w := by
  have hc := station_chars h hn
  obtain ⟨m, hm⟩ := h'
  obtain ⟨g, -, rfl⟩ := weather_reads.2 w m hm hn
  refine .weather g hc.1 (fun hx => ?_) (fun hx => ?_) <;> · have := hc.2.1 _ hx; omega

theorem shared_recent {w : PyStr} (h : Admits MetarRegExp.STATION w)
    (h' : Admits MetarRegExp.RECENT_WEATHER w) (hn : 10 ∉ w) : SharedMetar .station .recent w := by
  obtain ⟨m, hm⟩ := h'
  obtain ⟨g, hg, rfl⟩ := recent_reads.2 w m hm hn
  exact .recent g hg (station_chars h hn).1

/-! ### The shared words are accepted by both patterns -/

theorem HasShape.mem_class {ks : List CC} {s : PyStr} (h : HasShape ks s) {k : CC} (hk : k ∈ ks) :
    ∃ c ∈ s, k.mem c = true := by
  induction ks generalizing s with
  | nil => cases hk
  | cons q qs ih =>
    obtain ⟨c, t, rfl, hc, ht⟩ := h
    rcases List.mem_cons.1 hk with rfl | hk
    · exact ⟨c, by simp, hc⟩
    · obtain ⟨d, hd, hm⟩ := ih ht hk
      exact ⟨d, by simp [hd], hm⟩

/-- Four characters, no sign. -/
def plainFour (ks : List CC) : Bool :=
  ks.length == 4 && !(ks.contains (CC.one 43) || ks.contains (CC.one 45))

theorem weather_shared {g : WeatherGroup} (h : g.text.length = 4) (h1 : 43 ∉ g.text) (h2 : 45 ∉ g.text) :
    Admits MetarRegExp.STATION g.text ∧ Admits MetarRegExp.WEATHER g.text := by
  obtain ⟨m, x, hm, -⟩ := weather_reads.1 g trivial
  refine ⟨RE.covers_sound (q := MetarRegExp.WEATHER) (c := plainFour) (by decide +kernel) ⟨m, hm⟩
    (weather_noNl g) fun ks hs => ?_, m, hm⟩
  have hl := hs.length
  have no : ∀ a, a ∉ g.text → ks.contains (CC.one a) = false := by
    intro a ha
    rw [Bool.eq_false_iff]
    intro hk
    obtain ⟨c, hc, he⟩ := HasShape.mem_class hs (List.contains_iff_mem.1 hk)
    cases eq_of_one he
    exact ha hc
  rw [plainFour, no _ h1, no _ h2, ← hl, h]
  rfl

theorem recent_shared {g : RecentGroup} (hg : g.WF) (h : g.text.length = 4) :
    Admits MetarRegExp.STATION g.text ∧ Admits MetarRegExp.RECENT_WEATHER g.text := by
  obtain ⟨m, x, hm, -⟩ := recent_reads.1 g hg
  refine ⟨RE.covers_sound (q := MetarRegExp.RECENT_WEATHER) (c := fun ks => ks.length == 4)
    (by decide +kernel) ⟨m, hm⟩ (recent_noNl g) fun ks hs => ?_, m, hm⟩
  rw [← hs.length, h]
  rfl

theorem minimum_shared {v d : PyStr} (hv : Bare v) (hd : d ∈ visEnds) :
    Admits MetarRegExp.VISIBILITY (v ++ d) ∧ Admits MetarRegExp.MINIMUM_VISIBILITY (v ++ d) := by
  obtain ⟨ks, hk, hs⟩ := bare_shape hv
  have key : ([four .digit, four (.one 47)].all fun b => visEnds.all fun d =>
      (MetarRegExp.VISIBILITY.matchA (b ++ litShape d)).any Option.isSome &&
        (MetarRegExp.MINIMUM_VISIBILITY.matchA (b ++ litShape d)).any Option.isSome) = true := by
    decide +kernel
  have := List.all_eq_true.1 (List.all_eq_true.1 key ks hk) d hd
  rw [Bool.and_eq_true] at this
  exact ⟨Admits.of_shape (hs.append (hasShape_lit d)) this.1,
    Admits.of_shape (hs.append (hasShape_lit d)) this.2⟩

theorem bare_shared {v : PyStr} (hv : Bare v) : Admits MetarRegExp.PRESSURE v := by
  obtain ⟨ks, hk, hs⟩ := bare_shape hv
  have key : ([four .digit, four (.one 47)].all fun b =>
      (MetarRegExp.PRESSURE.matchA b).any Option.isSome) = true := by decide +kernel
  exact Admits.of_shape hs (List.all_eq_true.1 key ks hk)

theorem admits_of {r : RE} {w : PyStr} (h : (r.match w).isSome = true) : Admits r w :=
  Option.isSome_iff_exists.1 h

theorem ascii_of {d : Nat} (h : 48 ≤ d ∧ d ≤ 57) : ascii.mem d = true := CC.mem_range.2 h

theorem miles_shared {s d : Nat} {u : PyStr} (hs : s ∈ py!"MP") (hd : 48 ≤ d ∧ d ≤ 57)
    (hu : u ∈ [py!"SM", py!"KM"]) :
    Admits MetarRegExp.STATION (s :: d :: u) ∧ Admits MetarRegExp.VISIBILITY (s :: d :: u) := by
  have key : ((py!"MP").all fun s => [py!"SM", py!"KM"].all fun u =>
      (MetarRegExp.STATION.matchA (CC.one s :: ascii :: litShape u)).any Option.isSome &&
        (MetarRegExp.VISIBILITY.matchA (CC.one s :: ascii :: litShape u)).any Option.isSome) = true := by
    decide +kernel
  have := List.all_eq_true.1 (List.all_eq_true.1 key s hs) u hu
  rw [Bool.and_eq_true] at this
  have hsh : HasShape (CC.one s :: ascii :: litShape u) (s :: d :: u) :=
    .cons (CC.mem_range.2 ⟨Nat.le_refl _, Nat.le_refl _⟩) (.cons (ascii_of hd) (hasShape_lit u))
  exact ⟨Admits.of_shape hsh this.1, Admits.of_shape hsh this.2⟩

theorem units_shared {s d e u : Nat} (hs : s ∈ py!"MP") (hd : 48 ≤ d ∧ d ≤ 57) (he : 48 ≤ e ∧ e ≤ 57)
    (hu : u ∈ py!"MU") :
    Admits MetarRegExp.STATION [s, d, e, u] ∧ Admits MetarRegExp.VISIBILITY [s, d, e, u] := by
  have key : ((py!"MP").all fun s => (py!"MU").all fun u =>
      (MetarRegExp.STATION.matchA [CC.one s, ascii, ascii, CC.one u]).any Option.isSome &&
        (MetarRegExp.VISIBILITY.matchA [CC.one s, ascii, ascii, CC.one u]).any Option.isSome) = true := by
    decide +kernel
  have := List.all_eq_true.1 (List.all_eq_true.1 key s hs) u hu
  rw [Bool.and_eq_true] at this
  have hsh : HasShape [CC.one s, ascii, ascii, CC.one u] [s, d, e, u] :=
    .cons (CC.mem_range.2 ⟨Nat.le_refl _, Nat.le_refl _⟩) (.cons (ascii_of hd) (.cons (ascii_of he)
      (.cons (CC.mem_range.2 ⟨Nat.le_refl _, Nat.le_refl _⟩) .nil)))
  exact ⟨Admits.of_shape hsh this.1, Admits.of_shape hsh this.2⟩

/-! ### What the decoder does with a word of one kind -/

theorem consumed_accepts {σ : Type} {hs : List (Handler σ)} {gs : List PyStr} {c : List (PyStr × Nat)}
    (h : Decodes hs gs c) {g : PyStr} {i : Nat} (hm : (g, i) ∈ c) : Accepts hs i g := by
  obtain ⟨asg, -, hf, rfl⟩ := h
  simp only [consumed, List.mem_filterMap, Option.map_eq_some_iff, Prod.mk.injEq] at hm
  obtain ⟨⟨g', o⟩, hm, i', rfl, rfl, rfl⟩ := hm
  obtain ⟨k, hk⟩ := List.mem_iff_getElem?.1 hm
  rw [List.getElem?_zip_eq_some] at hk
  exact (hf k g' (some i') hk.1 hk.2).2.1

/-- The kind of the handler that takes a word accepts the word. -/
theorem taken_kind {σ κ : Type} {hs : List (Handler σ)} {ks : List κ} {p : κ → RE}
    (e : hs.map Handler.regexp = ks.map p) {gs : List PyStr} {c : List (PyStr × Nat)}
    (h : Decodes hs gs c) {g : PyStr} {i : Nat} (hm : (g, i) ∈ c) :
    ∃ k, ks[i]? = some k ∧ Admits (p k) g := by
  obtain ⟨f, hf, ha⟩ := consumed_accepts h hm
  have := congrArg (·[i]?) e
  simp only [List.getElem?_map, hf, Option.map_some] at this
  cases hk : ks[i]? with
  | none => rw [hk] at this; cases this
  | some k =>
    rw [hk] at this
    simp only [Option.map_some, Option.some.injEq] at this
    exact ⟨k, rfl, this ▸ admits_of ha⟩

end Verif
