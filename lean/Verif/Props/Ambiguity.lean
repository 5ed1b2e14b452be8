import Verif.Lemmas.Ambiguity
import Verif.Props.Time

/-
C79: which words can be read as more than one kind of group.
-/

namespace Verif.Props
open Verif Spec

/-- C79. A word that the patterns of two kinds of groups of a METAR accept is one of the shared words,
and every shared word is accepted by both. -/
theorem C79_metar (k k' : MetarKind) (w : PyStr) (hn : 10 ∉ w) :
    (Admits k.pattern w → Admits k'.pattern w → k = k' ∨ SharedMetar k k' w ∨ SharedMetar k' k w) ∧
    (SharedMetar k k' w → k ≠ k' ∧ Admits k.pattern w ∧ Admits k'.pattern w) := by
  refine ⟨fun h h' => ?_, fun h => ?_⟩
  · have all : ∀ k, k ∈ metarRanked := by intro k; cases k <;> decide
    have pair : ∀ {a b : MetarKind}, (a, b) ∈ metarPairs → Admits a.pattern w → Admits b.pattern w →
        SharedMetar a b w ∨ SharedMetar b a w := by
      intro a b hp ha hb
      simp only [metarPairs, List.mem_cons, List.not_mem_nil, or_false, Prod.mk.injEq] at hp
      rcases hp with ⟨rfl, rfl⟩ | ⟨rfl, rfl⟩ | ⟨rfl, rfl⟩ | ⟨rfl, rfl⟩ | ⟨rfl, rfl⟩ | ⟨rfl, rfl⟩ |
        ⟨rfl, rfl⟩ | ⟨rfl, rfl⟩
      · exact .inl (shared_modifier ha hb hn)
      · exact .inl (shared_visibility ha hb hn)
      · exact .inl (shared_weather ha hb hn)
      · exact .inl (shared_cloud ha hb hn)
      · exact .inl (shared_recent ha hb hn)
      · exact .inr (shared_minimum hb ha hn)
      · exact .inr (shared_pressure hb ha hn)
      · exact .inl (shared_pressure' ha hb hn)
    rcases apartIn_sound metar_apartIn (all k) (all k') h h' hn with e | hp | hp
    · exact .inl e
    · exact .inr (pair hp h h')
    · exact .inr (pair hp h' h).symm
  · cases h with
    | modifier hw =>
      refine ⟨by decide, ?_⟩
      have key : ([py!"CORR", py!"TEST", py!"FINO", py!"AUTO"].all fun w =>
          (MetarRegExp.STATION.match w).isSome && (MetarRegExp.MODIFIER.match w).isSome) = true := by
        decide +kernel
      have := List.all_eq_true.1 key w hw
      rw [Bool.and_eq_true] at this
      exact ⟨admits_of this.1, admits_of this.2⟩
    | miles hs hd hu => exact ⟨by decide, miles_shared hs hd hu⟩
    | units hs hd he hu => exact ⟨by decide, units_shared hs hd he hu⟩
    | weather g h h1 h2 => exact ⟨by decide, weather_shared h h1 h2⟩
    | cloud => exact ⟨by decide, admits_of (by decide +kernel), admits_of (by decide +kernel)⟩
    | recent g hg h => exact ⟨by decide, recent_shared hg h⟩
    | minimum hv hd => exact ⟨by decide, minimum_shared hv hd⟩
    | pressure hv =>
      have := minimum_shared hv (d := []) (by decide)
      rw [List.append_nil] at this
      exact ⟨by decide, this.1, bare_shared hv⟩
    | pressure' hv =>
      have := minimum_shared hv (d := []) (by decide)
      rw [List.append_nil] at this
      exact ⟨by decide, this.2, bare_shared hv⟩

/-- C79. A word of a METAR body that is decoded and is not a shared word is decoded as the one kind of
group that accepts it. -/
theorem C79_metar_read (db : Database) (now : Now) (a : Args) (groups : List PyStr)
    (c : List (PyStr × Nat)) (hc : Decodes (Metar.handlers db now a) groups c) (w : PyStr) (i : Nat)
    (hw : (w, i) ∈ c) (hn : 10 ∉ w) (k : MetarKind) (hk : Admits k.pattern w)
    (hs : ∀ k', ¬ SharedMetar k k' w ∧ ¬ SharedMetar k' k w) : metarOrder[i]? = some k := by
  have e : (Metar.handlers db now a).map Handler.regexp = metarOrder.map MetarKind.pattern := rfl
  obtain ⟨k', hi, hk'⟩ := taken_kind e hc hw
  rcases (C79_metar k k' w hn).1 hk hk' with rfl | h | h
  · exact hi
  · exact ((hs k').1 h).elim
  · exact ((hs k').2 h).elim

/-- C79. No word is accepted by two kinds of groups of a trend, and a word of a trend that is decoded is
decoded as the kind that accepts it. -/
theorem C79_trend (w : PyStr) (hn : 10 ∉ w) :
    (∀ k k' : TrendGroupKind, Admits k.pattern w → Admits k'.pattern w → k = k') ∧
    ∀ groups c i k, Decodes ChangePeriod.handlers groups c → (w, i) ∈ c → Admits (TrendGroupKind.pattern k) w →
      trendOrder[i]? = some k := by
  have all : ∀ k, k ∈ [TrendGroupKind.change, .period, .cloud, .visibility, .wind, .weather] := by
    intro k; cases k <;> decide
  have key : ∀ k k' : TrendGroupKind, Admits k.pattern w → Admits k'.pattern w → k = k' := by
    intro k k' h h'
    rcases apartIn_sound trend_apartIn (all k) (all k') h h' hn with e | hp | hp
    · exact e
    · cases hp
    · cases hp
  refine ⟨key, fun groups c i k hc hw hk => ?_⟩
  have e : ChangePeriod.handlers.map Handler.regexp = trendOrder.map TrendGroupKind.pattern := rfl
  obtain ⟨k', hi, hk'⟩ := taken_kind e hc hw
  rw [hi, key k k' hk hk']

/-- C79. The kinds of groups of a TAF that share words are the listed ones. -/
theorem C79_taf (k k' : TafKind) :
    (∃ w, 10 ∉ w ∧ Admits k.pattern w ∧ Admits k'.pattern w) ↔
      k = k' ∨ (∃ w, (k, k', w) ∈ sharedTaf) ∨ ∃ w, (k', k, w) ∈ sharedTaf := by
  have all : ∀ k, k ∈ tafRanked := by intro k; cases k <;> decide
  have each : ∀ x ∈ sharedTaf, 10 ∉ x.2.2 ∧ Admits x.1.pattern x.2.2 ∧ Admits x.2.1.pattern x.2.2 := by
    have key : (sharedTaf.all fun x => !x.2.2.contains 10 && ((x.1.pattern.match x.2.2).isSome &&
        (x.2.1.pattern.match x.2.2).isSome)) = true := by decide +kernel
    intro x hx
    have := List.all_eq_true.1 key x hx
    simp only [Bool.and_eq_true, Bool.not_eq_true', List.contains_eq_mem, decide_eq_false_iff_not] at this
    exact ⟨this.1, admits_of this.2.1, admits_of this.2.2⟩
  constructor
  · rintro ⟨w, hn, h, h'⟩
    have pairs : ∀ a b, (a, b) ∈ tafPairs →
        (∃ w, (a, b, w) ∈ sharedTaf) ∨ ∃ w, (b, a, w) ∈ sharedTaf := by
      intro a b hp
      simp only [tafPairs, List.mem_cons, List.not_mem_nil, or_false, Prod.mk.injEq] at hp
      rcases hp with ⟨rfl, rfl⟩ | ⟨rfl, rfl⟩ | ⟨rfl, rfl⟩ | ⟨rfl, rfl⟩ | ⟨rfl, rfl⟩ | ⟨rfl, rfl⟩ |
        ⟨rfl, rfl⟩ | ⟨rfl, rfl⟩ <;> simp [sharedTaf]
    rcases apartIn_sound taf_apartIn (all k) (all k') h h' hn with e | hp | hp
    · exact .inl e
    · exact .inr (pairs _ _ hp)
    · exact .inr (pairs _ _ hp).symm
  · rintro (rfl | ⟨w, h⟩ | ⟨w, h⟩)
    · have : ∃ w, 10 ∉ w ∧ (k.pattern.match w).isSome = true := by
        cases k
        · exact ⟨py!"TAF", by decide, by decide +kernel⟩
        · exact ⟨py!"AMD", by decide, by decide +kernel⟩
        · exact ⟨py!"SKBO", by decide, by decide +kernel⟩
        · exact ⟨py!"151200Z", by decide, by decide +kernel⟩
        · exact ⟨py!"NIL", by decide, by decide +kernel⟩
        · exact ⟨py!"1512/1612", by decide, by decide +kernel⟩
        · exact ⟨py!"CNL", by decide, by decide +kernel⟩
        · exact ⟨py!"23015KT", by decide, by decide +kernel⟩
        · exact ⟨py!"9999", by decide, by decide +kernel⟩
        · exact ⟨py!"RA", by decide, by decide +kernel⟩
        · exact ⟨py!"OVC010", by decide, by decide +kernel⟩
        · exact ⟨py!"TX20/1512Z", by decide, by decide +kernel⟩
      obtain ⟨w, h1, h2⟩ := this
      exact ⟨w, h1, admits_of h2, admits_of h2⟩
    · exact ⟨w, each _ h⟩
    · have := each _ h
      exact ⟨w, this.1, this.2.2, this.2.1⟩

/-- C79. No word is accepted by two kinds of groups of a change of a TAF, and a word of a change that is
decoded is decoded as the kind that accepts it. -/
theorem C79_change (w : PyStr) (hn : 10 ∉ w) :
    (∀ k k' : ChangeGroupKind, Admits k.pattern w → Admits k'.pattern w → k = k') ∧
    ∀ groups c i k, Decodes ChangeForecasted.handlers groups c → (w, i) ∈ c →
      Admits (ChangeGroupKind.pattern k) w → changeOrder[i]? = some k := by
  have all : ∀ k, k ∈ [ChangeGroupKind.change, .valid, .cloud, .visibility, .wind, .weather] := by
    intro k; cases k <;> decide
  have key : ∀ k k' : ChangeGroupKind, Admits k.pattern w → Admits k'.pattern w → k = k' := by
    intro k k' h h'
    rcases apartIn_sound change_apartIn (all k) (all k') h h' hn with e | hp | hp
    · exact e
    · cases hp
    · cases hp
  refine ⟨key, fun groups c i k hc hw hk => ?_⟩
  have e : ChangeForecasted.handlers.map Handler.regexp = changeOrder.map ChangeGroupKind.pattern := rfl
  obtain ⟨k', hi, hk'⟩ := taken_kind e hc hw
  rw [hi, key k k' hk hk']

/-- C79. A word of a TAF body that is decoded, and of whose kind no word is shared, is decoded as that
kind. -/
theorem C79_taf_read (db : Database) (now : Now) (a : Args) (groups : List PyStr)
    (c : List (PyStr × Nat)) (hc : Decodes (Taf.handlers db now a) groups c) (w : PyStr) (i : Nat)
    (hw : (w, i) ∈ c) (hn : 10 ∉ w) (k : TafKind) (hk : Admits k.pattern w)
    (hs : ∀ x ∈ sharedTaf, x.1 = k ∨ x.2.1 = k → ¬ (Admits x.1.pattern w ∧ Admits x.2.1.pattern w)) :
    tafOrder[i]? = some k := by
  have e : (Taf.handlers db now a).map Handler.regexp = tafOrder.map TafKind.pattern := rfl
  obtain ⟨k', hi, hk'⟩ := taken_kind e hc hw
  rcases (C79_taf k k').1 ⟨w, hn, hk, hk'⟩ with rfl | ⟨_, h⟩ | ⟨_, h⟩
  · exact hi
  · exact (hs _ h (.inl rfl) ⟨hk, hk'⟩).elim
  · exact (hs _ h (.inr rfl) ⟨hk', hk⟩).elim

/-! ### Cases -/

/-- A word that only the runway visual range accepts. -/
example : 10 ∉ py!"R13L/1500FTU" ∧ Admits MetarKind.range.pattern py!"R13L/1500FTU" ∧
    ∀ k', ¬ SharedMetar .range k' py!"R13L/1500FTU" ∧ ¬ SharedMetar k' .range py!"R13L/1500FTU" :=
  ⟨by decide, admits_of (by decide +kernel), fun k' => ⟨(nomatch ·), (nomatch ·)⟩⟩

/-- A four-letter weather group stands where the station is missing: it is taken for the station. -/
example : (match Metar.new sampleDb sampleClock py!"METAR TSRA 151200Z" {} with
    | .ok r => decide (r.station.code = some py!"TSRA") | .error _ => false) = true := by
  decide +kernel

example : SharedMetar .station .weather py!"TSRA" :=
  .weather ⟨none, some .TS, some (.prec .RA)⟩ (by decide) (by decide) (by decide)

example : SharedMetar .station .visibility py!"M1SM" :=
  .miles (u := py!"SM") (by decide) (by decide) (by decide)

example : SharedMetar .station .recent py!"RERA" :=
  .recent ⟨none, some .RA, none, none⟩ ⟨by simp, by simp⟩ (by decide)

end Verif.Props
