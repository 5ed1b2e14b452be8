import Verif.Lemmas.YearMonth
import Verif.Props.Time

/-
C95: any year and month given to a report, those outside the calendar included.
-/

namespace Verif.Props

/-- What a report made for year `y` and month `mo` has for a time: a time of that month, or, for a
year below 1000, a time of a later year. -/
def Asked (y mo : Int) (t : DT) : Prop :=
  (1000 ≤ y ∧ y ≤ 9999 ∧ 1 ≤ mo ∧ mo ≤ 12 ∧ (t.year : Int) = y ∧ (t.month : Int) = mo) ∨
    (0 ≤ y ∧ y ≤ 999 ∧ 0 ≤ mo ∧ 1 ≤ t.year ∧ 10 * y ≤ t.year)

/-- A year and month that no report is made for. -/
def Outside (y mo : Int) : Prop :=
  y < 0 ∨ 9999 < y ∨ mo < 0 ∨ (1000 ≤ y ∧ ¬ (1 ≤ mo ∧ mo ≤ 12))

theorem outside_time {y mo : Int} (ho : Outside y mo) {now : Now} {g : Option Match}
    (hg : ∀ m, g = some m → ∃ s, MetarRegExp.TIME.match s = some m) :
    Time.fromMetar now g (some y) (some mo) = .error .value := by
  cases e : Time.fromMetar now g (some y) (some mo) with
  | ok t =>
    exfalso
    unfold Outside at ho
    rcases Time.fromMetar_year hg e with h | h <;> omega
  | error x =>
    have : ∀ c i h d, Time.new now c i h d (some mo) (some y) = .error x → x = .value := by
      intro c i h d e
      unfold Time.new at e
      simp only at e
      split at e
      · next e' he =>
        injection e with e
        subst e
        exact strptime_raises _ _ he
      · cases e
    cases g with
    | none => rw [this _ _ _ _ e]
    | some m => rw [this _ _ _ _ e]

/-- C95, METAR. A report made for a year and month has a time in that month, or the year was below
1000 and the time is in another year. -/
theorem C95_metar {db : Database} {clock : Clock} {code : PyStr} {y mo : Int} {tr : Bool} {r : Metar}
    (h : Metar.new db clock code ⟨some y, some mo, tr⟩ = .ok r) : Asked y mo r.time.time := by
  obtain ⟨time, h0, -, hR, -⟩ := Metar.new_decodes h ((decodes_iff _ _ _).2 rfl)
  rcases hR.time with ⟨g, m, -, hm, hx⟩ | ⟨-, hx⟩
  · exact Time.fromMetar_year (fun m' e => by cases e; exact ⟨g, hm⟩) hx
  · rw [hx]
    exact Time.fromMetar_year (g := none) (by simp) h0

/-- C95, METAR. Outside the calendar the constructor raises `ValueError`, whatever the text. -/
theorem C95_metar_refused {db : Database} {clock : Clock} (hs : Sane clock) {code : PyStr}
    (hc : code ≠ []) {y mo : Int} (ho : Outside y mo) (tr : Bool) :
    Metar.new db clock code ⟨some y, some mo, tr⟩ = .error .value := by
  rw [Metar.new_eq db clock code _ hc]
  obtain ⟨_, _, -, -, -, -, -, -, ht0⟩ := default_time hs 0 none none (by simp) (by simp)
  rw [ht0, ok_bind]
  simp only
  rw [outside_time ho (by simp)]
  rfl

/-- C95, TAF. As for a METAR if the body has a time group; without one the time is the beginning of
the month of the clock, and the year and month given are not looked at. -/
theorem C95_taf {db : Database} {clock : Clock} {code : PyStr} {y mo : Int} {tr : Bool} {r : Taf}
    (h : Taf.new db clock code ⟨some y, some mo, tr⟩ = .ok r) {c : List (PyStr × Nat)}
    (hc : Spec.Decodes (Taf.handlers db (clock 1) ⟨some y, some mo, tr⟩) (Spec.bodyGroups r.body) c) :
    ((∃ g, (g, 3) ∈ c) → Asked y mo r.time.time) ∧
      ((∀ g, (g, 3) ∉ c) → Sane clock → r.time.time = ⟨(clock 0).year, (clock 0).month, 1, 0, 0⟩) := by
  obtain ⟨time, v, h0, -, -, hR, -⟩ := Taf.new_decodes h hc
  rcases hR.time with ⟨g, m, hg, hm, hx⟩ | ⟨hno, hx⟩
  · exact ⟨fun _ => Time.fromMetar_year (fun m' e => by cases e; exact ⟨g, hm⟩) hx,
      fun hno => absurd hg (hno g)⟩
  · refine ⟨fun ⟨g, hg⟩ => absurd hg (hno g), fun _ hs => ?_⟩
    rw [hx]
    obtain ⟨y', m', -, -, -, -, ey, em, ht0⟩ := default_time hs 0 none none (by simp) (by simp)
    rw [ht0] at h0
    injection h0 with h0
    simp only [Option.getD_none] at ey em
    simp only [Taf.start, ← h0]
    have : y' = (clock 0).year := by omega
    have : m' = (clock 0).month := by omega
    simp [*]

/-- C95, TAF. Without a time group the year and month given make no difference to anything. -/
theorem C95_taf_unused (db : Database) (clock : Clock) (code : PyStr) (y mo y' mo' : Option Int)
    (tr : Bool) {c : List (PyStr × Nat)}
    (hc : Spec.Decodes (Taf.handlers db (clock 1) ⟨y, mo, tr⟩)
      (Spec.bodyGroups (tafSections (normalizeCode code)).1) c)
    (hg : ∀ g, (g, 3) ∉ c) :
    Taf.new db clock code ⟨y, mo, tr⟩ = Taf.new db clock code ⟨y', mo', tr⟩ := by
  by_cases hc0 : code = []
  · subst hc0; rfl
  rw [Taf.new_eq _ _ _ _ hc0, Taf.new_eq _ _ _ _ hc0]
  have key : ∀ s, parseSection (Taf.handlers db (clock 1) ⟨y, mo, tr⟩) (Taf.bodyText (normalizeCode code)) s =
      parseSection (Taf.handlers db (clock 1) ⟨y', mo', tr⟩) (Taf.bodyText (normalizeCode code)) s := by
    intro s
    refine parseSection_other (by simp only [Taf.handlers, List.map_cons]) fun g i hgi => ?_
    have hc' := (decodes_iff _ _ _).1 hc
    have hgi : (g, i) ∈ c := hc' ▸ hgi
    have hi : i ≠ 3 := by rintro rfl; exact hg g hgi
    have hi : i = 0 ∨ i = 1 ∨ i = 2 ∨ ∃ k, i = k + 4 := by
      by_cases h4 : 4 ≤ i
      · exact .inr (.inr (.inr ⟨i - 4, by omega⟩))
      · omega
    rcases hi with rfl | rfl | rfl | ⟨k, rfl⟩ <;>
      simp only [Taf.handlers, List.getElem?_cons_succ, List.getElem?_cons_zero]
  simp only [key]

/-- C95, TAF. Outside the calendar a text with a time group is refused with `ValueError`. -/
theorem C95_taf_refused {db : Database} {clock : Clock} (hs : Sane clock) {code : PyStr}
    (hc0 : code ≠ []) {y mo : Int} (ho : Outside y mo) (tr : Bool) {c : List (PyStr × Nat)}
    (hc : Spec.Decodes (Taf.handlers db (clock 1) ⟨some y, some mo, tr⟩)
      (Spec.bodyGroups (tafSections (normalizeCode code)).1) c)
    {g : PyStr} (hg : (g, 3) ∈ c) :
    Taf.new db clock code ⟨some y, some mo, tr⟩ = .error .value := by
  rw [Taf.new_eq db clock code _ hc0]
  obtain ⟨y0, m0, b1, b2, b3, b4, -, -, ht0⟩ := default_time hs 0 none none (by simp) (by simp)
  obtain ⟨v0, hv0⟩ := default_valid b1 b2 b3 b4
  rw [ht0, ok_bind]
  simp only
  rw [hv0, ok_bind]
  obtain ⟨out, un, h1, hor, h2⟩ := parseSection_runs (s := Taf.start (normalizeCode code) _ v0)
    (text := Taf.bodyText (normalizeCode code)) hc
  have := h1.fails hor hg (e := .value) (by
    intro hd m' s hh hm'
    cases hh
    have := outside_time ho (now := clock 1) (g := some m') fun m e => by cases e; exact ⟨g, hm'⟩
    simp only [Taf.handleTime, this, error_bind])
    (by
      intro j hd hj hh m s
      have : j = 0 ∨ j = 1 ∨ j = 2 := by omega
      rcases this with rfl | rfl | rfl <;> cases hh
      · exact ⟨_, rfl⟩
      · exact ⟨_, rfl⟩
      · obtain ⟨st, hst⟩ := station_total db m.string
        simp only [Taf.handleStation, hst, ok_bind]
        exact ⟨_, rfl⟩)
  rw [h2, this]
  rfl

/-- C95, years below 1000. The claim that a report has the year asked for is false of them: the time
of a METAR for November 999 is read in the year 9991. -/
theorem C95_early_counterexample : ∃ (clock : Clock) (code : PyStr) (r : Metar), Sane clock ∧
    Metar.new sampleDb clock code ⟨some 999, some 11, false⟩ = .ok r ∧
    r.time.time = ⟨9991, 11, 21, 20, 0⟩ := by
  have h : (metarOk sampleClock py!"METAR KJFK 121200Z 18004KT" ⟨some 999, some 11, false⟩).map
      (·.time.time) = some ⟨9991, 11, 21, 20, 0⟩ := by decide +kernel
  unfold metarOk at h
  split at h
  · next r hr => exact ⟨sampleClock, _, r, sane_sample.1, hr, by simpa using h⟩
  · cases h

/-! ### Instances -/

/-- Both kinds of refusal of a METAR, and a month given that is the one read. -/
example : metarErr py!"METAR KJFK 121200Z 18004KT" ⟨some 2024, some 13, false⟩ = some .value ∧
    metarErr py!"METAR KJFK 121200Z 18004KT" ⟨some 12024, some 1, false⟩ = some .value ∧
    metarErr py!"METAR KJFK 121200Z 18004KT" ⟨some (-5), some 1, false⟩ = some .value ∧
    metarErr py!"METAR KJFK 121200Z 18004KT" ⟨some 99, some (-1), false⟩ = some .value ∧
    (metarOk sampleClock py!"METAR KJFK 121200Z 18004KT" ⟨some 2024, some 3, false⟩).map
      (·.time.time) = some ⟨2024, 3, 12, 12, 0⟩ := by decide +kernel

/-- A TAF without a time group is made for any year; with one it is refused outside the calendar. -/
example : (tafOk sampleClock py!"TAF KJFK 1212/1312 18004KT" ⟨some (-1), some 77, false⟩).map
      (·.time.time) = some ⟨(sampleClock 0).year, (sampleClock 0).month, 1, 0, 0⟩ ∧
    (tafOk sampleClock py!"TAF KJFK 121130Z 1212/1312 18004KT" ⟨some (-1), some 77, false⟩).isNone ∧
    Outside (-1) 77 := by
  refine ⟨by decide +kernel, by decide +kernel, .inl (by decide)⟩

/-- The hypotheses of `C95_taf_unused` for the first text. -/
example : ∃ c, Spec.Decodes (Taf.handlers sampleDb (sampleClock 1) ⟨some (-1), some 77, false⟩)
    (Spec.bodyGroups (tafSections (normalizeCode py!"TAF KJFK 1212/1312 18004KT")).1) c ∧
    (∀ g, (g, 3) ∉ c) ∧ c ≠ [] := by
  refine ⟨_, (decodes_iff _ _ _).2 rfl, ?_, by decide +kernel⟩
  have : ∀ x ∈ Spec.consumed (Spec.bodyGroups (tafSections (normalizeCode
      py!"TAF KJFK 1212/1312 18004KT")).1) (assign (Taf.handlers sampleDb (sampleClock 1)
      ⟨some (-1), some 77, false⟩) 0 (Spec.bodyGroups (tafSections (normalizeCode
      py!"TAF KJFK 1212/1312 18004KT")).1)), x.2 ≠ 3 := by decide +kernel
  exact fun g hg => this _ hg rfl

/-- The hypotheses of `C95_taf_refused` for the second text. -/
example : ∃ c, Spec.Decodes (Taf.handlers sampleDb (sampleClock 1) ⟨some (-1), some 77, false⟩)
    (Spec.bodyGroups (tafSections (normalizeCode py!"TAF KJFK 121130Z 1212/1312 18004KT")).1) c ∧
    (py!"121130Z", 3) ∈ c :=
  ⟨_, (decodes_iff _ _ _).2 rfl, by decide +kernel⟩

end Verif.Props
