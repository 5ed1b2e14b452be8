import Verif.Lemmas.Decoded
import Verif.Props.Exceptions

/-
C08, C48, C54: the unparsed groups of a report, NIL and CNL, and the station of a report.
-/

namespace Verif.Props

/-- C08, METAR. The unparsed groups of a report are those of the body (cut at the blanks after
joining split visibility and wind shear groups) followed by those of its trends, in order; the
unparsed groups of a trend are those of its own code. -/
theorem C08_metar_unparsed (db : Database) (clock : Clock) (code : PyStr) (a : Args) (r : Metar)
    (h : Metar.new db clock code a = .ok r) :
    (∃ un, Spec.Leaves (Metar.handlers db (clock 2) a)
        (splitC 32 (sanitizeWindshear (sanitizeVisibility r.body))) un ∧
      r.unparsed = un ++ r.weatherTrends.list.flatMap ChangePeriod.unparsed) ∧
    (∀ p ∈ r.weatherTrends.list, ∃ text, p.code = some text ∧
      Spec.Leaves ChangePeriod.handlers (splitC 32 (sanitizeVisibility text)) p.unparsed) := by
  obtain ⟨t0, time, asg, r1, -, -, e1, e2, -, -, -, e3, -, e4, -, e5, -⟩ := Metar.new_reading h
  have hb : Metar.bodyText (normalizeCode code) =
      sanitizeWindshear (sanitizeVisibility r.body) := by
    unfold Metar.body
    rw [e5]
    rfl
  refine ⟨⟨_, ⟨asg, ?_, ?_, rfl⟩, ?_⟩, ?_⟩
  · rw [← hb]; exact e1
  · rw [← hb]; exact e2
  · rw [← hb]; exact e4
  · intro p hp
    obtain ⟨t, -, ht⟩ := e3.right p hp
    obtain ⟨ind, asg', p1, -, h1, h2, -, -, -, h3, h4, -⟩ := ChangePeriod.new_reading ht
    exact ⟨_, h4, asg', h1, h2, by rw [h3]⟩

/-- C08, TAF. -/
theorem C08_taf_unparsed (db : Database) (clock : Clock) (code : PyStr) (a : Args) (r : Taf)
    (h : Taf.new db clock code a = .ok r) :
    (∃ un, Spec.Leaves (Taf.handlers db (clock 1) a) (splitC 32 (sanitizeVisibility r.body)) un ∧
      r.unparsed = un ++ r.changes.list.flatMap ChangeForecasted.unparsed) ∧
    (∀ c ∈ r.changes.list, Spec.Leaves ChangeForecasted.handlers
      (splitC 32 (sanitizeVisibility (sanitizeChangeIndicator c.code))) c.unparsed) := by
  obtain ⟨time, v, asg, r1, -, -, e1, e2, -, -, -, -, e3, -, e4, -, e5, -⟩ := Taf.new_reading h
  have hb : Taf.bodyText (normalizeCode code) = sanitizeVisibility r.body := by rw [e5]; rfl
  refine ⟨⟨_, ⟨asg, ?_, ?_, rfl⟩, ?_⟩, ?_⟩
  · rw [← hb]; exact e1
  · rw [← hb]; exact e2
  · rw [← hb]; exact e4
  · intro c hc
    obtain ⟨t, -, c0, ht, i, s, rfl, -⟩ := e3.right c hc
    obtain ⟨asg', p1, h1, h2, -, -, -, h3, h4, -⟩ := ChangeForecasted.new_reading ht
    simp only [h4]
    exact ⟨asg', h1, h2, by rw [h3]; rfl⟩

/-- Case: one unknown word in the body and one in each of two trends, in the order of the text. -/
example : (match Metar.new sampleDb sampleClock
      py!"METAR SKBO 151200Z ABC 9999 TEMPO DEF 2000 BECMG GHI 3000" {} with
    | .ok r => decide (r.unparsed = [py!"ABC", py!"DEF", py!"GHI"] ∧
        r.weatherTrends.list.map ChangePeriod.unparsed = [[py!"DEF"], [py!"GHI"]])
    | .error _ => false) = true := by decide +kernel

example : (match Taf.new sampleDb sampleClock
      py!"TAF SKBO 151200Z 1512/1612 ABC 9999 TEMPO 1512/1514 DEF 2000 BECMG 1516/1518 GHI" {} with
    | .ok r => decide (r.unparsed = [py!"ABC", py!"DEF", py!"GHI"])
    | .error _ => false) = true := by decide +kernel

/-! ### C48 -/

theorem nil_words {g : PyStr} {m : Match} (h : TafRegExp.NIL.match g = some m) (hn : 10 ∉ g) :
    g = py!"NIL" := by
  simpa using RE.words [py!"NIL"] (by decide +kernel) (by decide +kernel) h hn

theorem cancelled_words {g : PyStr} {m : Match} (h : TafRegExp.CANCELLED.match g = some m)
    (hn : 10 ∉ g) : g = py!"CNL" := by
  simpa using RE.words [py!"CNL"] (by decide +kernel) (by decide +kernel) h hn

/-- C48. A TAF is missing exactly when its body has a `NIL` that the handler of `NIL` took (the
fifth of the table), and cancelled exactly when it has a `CNL` that the handler of `CNL` took. -/
theorem C48_nil_cnl (db : Database) (clock : Clock) (code : PyStr) (a : Args) (r : Taf)
    (h : Taf.new db clock code a = .ok r) (c : List (PyStr × Nat))
    (hc : Spec.Decodes (Taf.handlers db (clock 1) a) (Spec.bodyGroups r.body) c) :
    (r.missing.isMissing = true ↔ (py!"NIL", 4) ∈ c) ∧
    (r.cancelled.isCancelled = true ↔ (py!"CNL", 6) ∈ c) := by
  obtain ⟨time, v, -, -, -, hR, hn⟩ := Taf.new_decodes h hc
  constructor
  · rcases hR.missing with ⟨g, m, hg, hm, hx⟩ | ⟨hg, hx⟩
    · obtain rfl := nil_words hm (hn _ _ hg)
      simp only [Except.ok.injEq] at hx
      simp [← hx, Missing.new, hg]
    · rw [hx]
      simp [Taf.start, Missing.new, hg]
  · rcases hR.cancelled with ⟨g, m, hg, hm, hx⟩ | ⟨hg, hx⟩
    · obtain rfl := cancelled_words hm (hn _ _ hg)
      simp only [Except.ok.injEq] at hx
      simp [← hx, Cancelled.new, hg]
    · rw [hx]
      simp [Taf.start, Cancelled.new, hg]

/-- Case: a missing and a cancelled forecast. -/
example : (match Taf.new sampleDb sampleClock py!"TAF SKBO 151200Z NIL" {} with
    | .ok r => r.missing.isMissing && !r.cancelled.isCancelled
    | .error _ => false) = true := by decide +kernel

example : (match Taf.new sampleDb sampleClock py!"TAF AMD SKBO 151200Z 1512/1612 CNL" {} with
    | .ok r => !r.missing.isMissing && r.cancelled.isCancelled
    | .error _ => false) = true := by decide +kernel

/-! ### C57 -/

/-- C57. The type of a report always has a description, and so has the modifier when there is one;
both are those of the word in the text. -/
theorem C57_metar_described (db : Database) (clock : Clock) (code : PyStr) (a : Args) (r : Metar)
    (h : Metar.new db clock code a = .ok r) :
    (r.type.code = some py!"METAR" ∧ r.type.type_ = some py!"Meteorological Aerodrome Report" ∨
     r.type.code = some py!"SPECI" ∧ r.type.type_ = some py!"Special Aerodrome Report" ∨
     r.type.code = some py!"TAF" ∧ r.type.type_ = some py!"Terminal Aerodrome Forecast") ∧
    (r.modifier.code = none ∧ r.modifier.description = none ∨
     r.modifier.code ∈ [some py!"COR", some py!"CORR"] ∧ r.modifier.description = some py!"Correction" ∨
     r.modifier.code = some py!"AMD" ∧ r.modifier.description = some py!"Amendment" ∨
     r.modifier.code ∈ [some py!"NIL", some py!"FINO"] ∧
       r.modifier.description = some py!"Missing report" ∨
     r.modifier.code = some py!"AUTO" ∧ r.modifier.description = some py!"Automatic report" ∨
     r.modifier.code = some py!"TEST" ∧ r.modifier.description = some py!"Testing report") := by
  obtain ⟨time, -, -, hR, hn⟩ := Metar.new_decodes h ((decodes_iff _ _ _).2 rfl)
  constructor
  · rcases hR.type with ⟨g, m, hg, hm, hx⟩ | ⟨hg, hx⟩
    · have hw := RE.words [py!"METAR", py!"SPECI", py!"TAF"] (by decide +kernel) (by decide +kernel)
        hm (hn _ _ hg)
      simp only [Except.ok.injEq, RE.match_string hm] at hx
      rw [← hx]
      clear hx hm hg
      revert hw
      simp only [List.mem_cons, List.not_mem_nil, or_false]
      rintro (rfl | rfl | rfl) <;> decide +kernel
    · rw [hx]
      exact .inl ⟨rfl, rfl⟩
  · rcases hR.modifier with ⟨g, m, hg, hm, hx⟩ | ⟨hg, hx⟩
    · have hw := RE.words [py!"COR", py!"CORR", py!"AMD", py!"NIL", py!"TEST", py!"FINO", py!"AUTO"]
        (by decide +kernel) (by decide +kernel) hm (hn _ _ hg)
      simp only [Except.ok.injEq, RE.match_string hm] at hx
      rw [← hx]
      clear hx hm hg
      revert hw
      simp only [List.mem_cons, List.not_mem_nil, or_false]
      rintro (rfl | rfl | rfl | rfl | rfl | rfl | rfl) <;> decide +kernel
    · rw [hx]
      exact .inl ⟨rfl, rfl⟩

theorem C57_taf_described (db : Database) (clock : Clock) (code : PyStr) (a : Args) (r : Taf)
    (h : Taf.new db clock code a = .ok r) :
    (r.type.code = some py!"METAR" ∧ r.type.type_ = some py!"Meteorological Aerodrome Report" ∨
     r.type.code = some py!"SPECI" ∧ r.type.type_ = some py!"Special Aerodrome Report" ∨
     r.type.code = some py!"TAF" ∧ r.type.type_ = some py!"Terminal Aerodrome Forecast") ∧
    (r.modifier.code = none ∧ r.modifier.description = none ∨
     r.modifier.code = some py!"COR" ∧ r.modifier.description = some py!"Correction" ∨
     r.modifier.code = some py!"AMD" ∧ r.modifier.description = some py!"Amendment") ∧
    (r.missing.mod.code = none ∧ r.missing.mod.description = none ∨
     r.missing.mod.code = some py!"NIL" ∧ r.missing.mod.description = some py!"Missing report") := by
  obtain ⟨time, v, -, -, -, hR, hn⟩ := Taf.new_decodes h ((decodes_iff _ _ _).2 rfl)
  refine ⟨?_, ?_, ?_⟩
  · rcases hR.type with ⟨g, m, hg, hm, hx⟩ | ⟨hg, hx⟩
    · have hw := RE.words [py!"METAR", py!"SPECI", py!"TAF"] (by decide +kernel) (by decide +kernel)
        hm (hn _ _ hg)
      simp only [Except.ok.injEq, RE.match_string hm] at hx
      rw [← hx]
      clear hx hm hg
      revert hw
      simp only [List.mem_cons, List.not_mem_nil, or_false]
      rintro (rfl | rfl | rfl) <;> decide +kernel
    · rw [hx]
      exact .inr (.inr ⟨rfl, rfl⟩)
  · rcases hR.modifier with ⟨g, m, hg, hm, hx⟩ | ⟨hg, hx⟩
    · have hw := RE.words [py!"COR", py!"AMD"] (by decide +kernel) (by decide +kernel) hm (hn _ _ hg)
      simp only [Except.ok.injEq, RE.match_string hm] at hx
      rw [← hx]
      clear hx hm hg
      revert hw
      simp only [List.mem_cons, List.not_mem_nil, or_false]
      rintro (rfl | rfl) <;> decide +kernel
    · rw [hx]
      exact .inl ⟨rfl, rfl⟩
  · rcases hR.missing with ⟨g, m, hg, hm, hx⟩ | ⟨hg, hx⟩
    · have hs := RE.match_string hm
      obtain rfl := nil_words hm (hn _ _ hg)
      simp only [Except.ok.injEq, hs] at hx
      rw [← hx]
      exact .inr (by decide +kernel)
    · rw [hx]
      exact .inl ⟨rfl, rfl⟩

/-- Case: a special report with a modifier. -/
example : (match Metar.new sampleDb sampleClock py!"SPECI SKBO 151200Z AUTO" {} with
    | .ok r => decide (r.type.type_ = some py!"Special Aerodrome Report" ∧
        r.modifier.description = some py!"Automatic report")
    | .error _ => false) = true := by decide +kernel

/-- Case: a corrected forecast. -/
example : (match Taf.new sampleDb sampleClock py!"TAF COR SKBO 151200Z 1512/1612 NIL" {} with
    | .ok r => decide (r.modifier.description = some py!"Correction" ∧
        r.missing.mod.description = none)
    | .error _ => false) = true := by decide +kernel

/-! ### C54 -/

/-- C54. A station looked up by ICAO, IATA or SYNOP code shows the first row of the table that has
that code in that column; without such a row every attribute is `None`. The code is the one asked
for. -/
theorem C54_lookup (db : Database) (c type : PyStr)
    (ht : type = py!"ICAO" ∨ type = py!"IATA" ∨ type = py!"SYNOP") :
    ∃ s, Station.new db (some c) type = .ok s ∧ s.code = some (Spec.shown c) ∧
      ∀ col : StationRow → PyStr,
        (type = py!"ICAO" ∧ col = StationRow.icao ∨ type = py!"IATA" ∧ col = StationRow.iata ∨
          type = py!"SYNOP" ∧ col = StationRow.synop) →
        (∃ before row after, db.stations = before ++ row :: after ∧ col row = c ∧
          (∀ x ∈ before, col x ≠ c) ∧ s.row = some row) ∨
        ((∀ x ∈ db.stations, col x ≠ c) ∧ s.row = none ∧ s.country db = none) := by
  have key : ∀ col : StationRow → PyStr, ∀ s : Station,
      s.row = (db.stations.find? fun r => c = col r) →
      (∃ before row after, db.stations = before ++ row :: after ∧ col row = c ∧
          (∀ x ∈ before, col x ≠ c) ∧ s.row = some row) ∨
        ((∀ x ∈ db.stations, col x ≠ c) ∧ s.row = none ∧ s.country db = none) := by
    intro col s hs
    cases hf : db.stations.find? fun r => c = col r with
    | none =>
      rw [List.find?_eq_none] at hf
      rw [List.find?_eq_none.2 hf] at hs
      refine .inr ⟨fun x hx he => hf x hx (by simp [he]), hs, ?_⟩
      simp [Station.country, hs, dgetO]
    | some row =>
      rw [hf] at hs
      rw [List.find?_eq_some_iff_append] at hf
      obtain ⟨h1, as, bs, h2, h3⟩ := hf
      refine .inl ⟨as, row, bs, h2, by simpa using (of_decide_eq_true h1).symm, ?_, hs⟩
      intro x hx he
      simpa [he] using h3 x hx
  rcases ht with rfl | rfl | rfl
  · refine ⟨_, rfl, groupCode_some c, ?_⟩
    rintro col (⟨-, rfl⟩ | ⟨h, -⟩ | ⟨h, -⟩)
    · exact key _ _ rfl
    · exact absurd h (by decide)
    · exact absurd h (by decide)
  · refine ⟨_, rfl, groupCode_some c, ?_⟩
    rintro col (⟨h, -⟩ | ⟨-, rfl⟩ | ⟨h, -⟩)
    · exact absurd h (by decide)
    · exact key _ _ rfl
    · exact absurd h (by decide)
  · refine ⟨_, rfl, groupCode_some c, ?_⟩
    rintro col (⟨h, -⟩ | ⟨h, -⟩ | ⟨-, rfl⟩)
    · exact absurd h (by decide)
    · exact absurd h (by decide)
    · exact key _ _ rfl

/-- What a report says about its station, given the word taken as station. -/
def StationOf (db : Database) (g : PyStr) (s : Station) : Prop :=
  s.code = some g ∧
  ((∃ before row after, db.stations = before ++ row :: after ∧ row.icao = g ∧
      (∀ x ∈ before, x.icao ≠ g) ∧ s.row = some row) ∨
   ((∀ x ∈ db.stations, x.icao ≠ g) ∧ s.row = none))

theorem station_of {db : Database} {g : PyStr} {m : Match} {s : Station}
    (hm : MetarRegExp.STATION.match g = some m) (hn : 10 ∉ g)
    (hs : Station.new db (some m.string) py!"ICAO" = .ok s) : StationOf db g s := by
  obtain ⟨s', h1, h2, h3⟩ := C54_lookup db m.string py!"ICAO" (.inl rfl)
  rw [hs] at h1
  cases h1
  rw [RE.match_string hm] at h2 h3
  have hu : 95 ∉ g := by
    obtain ⟨x, hx, -, -, hsh, -, -⟩ := RE.match_whole (by decide +kernel) hm hn
    have : ∀ x ∈ MetarRegExp.STATION.paths0, avoids 95 (pathCls x.1) = true := by decide +kernel
    exact avoids_sound (this x hx) hsh
  have hsg : Spec.shown g = g := by
    rw [shown_eq]
    exact replace_absent _ _ _ hu
  rw [hsg] at h2
  refine ⟨h2, ?_⟩
  rcases h3 StationRow.icao (.inl ⟨rfl, rfl⟩) with h | h
  · exact .inl h
  · exact .inr ⟨h.1, h.2.1⟩

/-- C54. The station of a report is the one of the word taken by the station handler; without such
a word there is no station. -/
theorem C54_report (db : Database) (clock : Clock) (code : PyStr) (a : Args) :
    (∀ r c, Metar.new db clock code a = .ok r →
      Spec.Decodes (Metar.handlers db (clock 2) a) (Spec.metarGroups r.body) c →
      (∃ g, (g, 1) ∈ c ∧ StationOf db g r.station) ∨
      ((∀ g, (g, 1) ∉ c) ∧ r.station.code = none ∧ r.station.row = none)) ∧
    (∀ r c, Taf.new db clock code a = .ok r →
      Spec.Decodes (Taf.handlers db (clock 1) a) (Spec.bodyGroups r.body) c →
      (∃ g, (g, 2) ∈ c ∧ StationOf db g r.station) ∨
      ((∀ g, (g, 2) ∉ c) ∧ r.station.code = none ∧ r.station.row = none)) := by
  constructor
  · intro r c h hc
    obtain ⟨time, -, -, hR, hn⟩ := Metar.new_decodes h hc
    rcases hR.station with ⟨g, m, hg, hm, hx⟩ | ⟨hg, hx⟩
    · exact .inl ⟨g, hg, station_of hm (hn _ _ hg) hx⟩
    · exact .inr ⟨hg, by rw [hx]; exact ⟨rfl, rfl⟩⟩
  · intro r c h hc
    obtain ⟨time, v, -, -, -, hR, hn⟩ := Taf.new_decodes h hc
    rcases hR.station with ⟨g, m, hg, hm, hx⟩ | ⟨hg, hx⟩
    · exact .inl ⟨g, hg, station_of hm (hn _ _ hg) hx⟩
    · exact .inr ⟨hg, by rw [hx]; exact ⟨rfl, rfl⟩⟩

/-- Case: two rows with the same code, the first counts. -/
example : (match Metar.new ⟨[⟨py!"A", py!"SKCL", [], [], [], [], [], py!"CO"⟩,
      ⟨py!"B", py!"SKBO", [], [], [], [], [], py!"CO"⟩,
      ⟨py!"C", py!"SKBO", [], [], [], [], [], py!"CO"⟩], [(py!"CO", py!"Colombia")]⟩ sampleClock
      py!"METAR SKBO 151200Z" {} with
    | .ok r => decide (r.station.row.map StationRow.name = some py!"B")
    | .error _ => false) = true := by decide +kernel

end Verif.Props
