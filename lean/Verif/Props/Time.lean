import Verif.Lemmas.Times
import Verif.Lemmas.Inverse
import Verif.Lemmas.RunErr
import Verif.Lemmas.Strptime
import Verif.Props.Exceptions

/-
C13, C14, C15: the time of a report, the existence of all its times, and the clock.
-/

namespace Verif.Props

/-- A wall clock that shows an existing month of a four digit year. -/
def Sane (clock : Clock) : Prop :=
  ∀ n, 1000 ≤ (clock n).year ∧ (clock n).year ≤ 9999 ∧ 1 ≤ (clock n).month ∧ (clock n).month ≤ 12

/-- The text of a time group. -/
theorem time_form {g : PyStr} {m : Match} (hm : MetarRegExp.TIME.match g = some m) (hn : 10 ∉ g) :
    ∃ d h i, g = d ++ h ++ i ++ py!"Z" ∧ d.length = 2 ∧ h.length = 2 ∧ i.length = 2 ∧
      m.group .day = some d ∧ m.group .hour = some h ∧ m.group .min = some i := by
  obtain ⟨f, hf, ts, hs, rfl, hg⟩ := RE.inForms_sound (r := MetarRegExp.TIME)
    (table := [([[.digit, .digit], [.digit, .digit], [.digit, .digit], [CC.one 90]],
      [(.day, some 0), (.hour, some 1), (.min, some 2)])]) (by decide +kernel) hm hn
  rw [List.mem_singleton] at hf
  subst hf
  obtain _ | ⟨d, _ | ⟨h, _ | ⟨i, _ | ⟨z, _ | ⟨_, _⟩⟩⟩⟩⟩ := ts <;> try exact hs.elim
  · exact hs.2.elim
  · exact hs.2.2.elim
  · exact hs.2.2.2.elim
  · have hz : z = py!"Z" := (hasShape_lit_iff (s := py!"Z")).1 hs.2.2.2.1
    refine ⟨d, h, i, by simp [hz], hs.1.length, hs.2.1.length, hs.2.2.1.length, ?_, ?_, ?_⟩
    · exact hg (.day, some 0) (by simp)
    · exact hg (.hour, some 1) (by simp)
    · exact hg (.min, some 2) (by simp)
  · exact hs.2.2.2.2.elim

/-- What the handler of the time group computes. -/
theorem time_value {now : Now} {a : Args} {y mo : Nat} (hy : a.year.getD now.year = (y : Int))
    (hmo : a.month.getD now.month = (mo : Int)) (hy1 : 1000 ≤ y) (hy2 : y ≤ 9999) (hm1 : 1 ≤ mo)
    (hm2 : mo ≤ 12) {g : PyStr} {m : Match} (hm : MetarRegExp.TIME.match g = some m)
    (hn : 10 ∉ g) :
    ∃ d h i, g = d ++ h ++ i ++ py!"Z" ∧ d.length = 2 ∧ h.length = 2 ∧ i.length = 2 ∧
      Digits d ∧ Digits h ∧ Digits i ∧
      (Spec.IsTime ⟨y, mo, digitsVal d, digitsVal h, digitsVal i⟩ →
        Time.fromMetar now (some m) a.year a.month =
          .ok ⟨groupCode (some g), ⟨y, mo, digitsVal d, digitsVal h, digitsVal i⟩⟩) ∧
      (¬ Spec.IsTime ⟨y, mo, digitsVal d, digitsVal h, digitsVal i⟩ →
        Time.fromMetar now (some m) a.year a.month = .error .value) := by
  obtain ⟨d, h, i, e, l1, l2, l3, g1, g2, g3⟩ := time_form hm hn
  obtain ⟨d', h', i', g1', g2', g3', e1, e2, e3, -, -, ht⟩ :=
    Time.fromMetar_some hy hmo hy1 hy2 hm1 hm2 hm
  rw [g1] at g1'; cases g1'
  rw [g2] at g2'; cases g2'
  rw [g3] at g3'; cases g3'
  refine ⟨d, h, i, e, l1, l2, l3, e1, e2, e3, fun hv => ?_, fun hv => ?_⟩
  · rw [isTime_iff] at hv
    rw [ht, if_pos hv]
  · rw [isTime_iff] at hv
    rw [ht, if_neg hv]

theorem default_time {clock : Clock} (hs : Sane clock) (n : Nat) (y mo : Option Int)
    (hy : ∀ x, y = some x → 1000 ≤ x ∧ x ≤ 9999) (hm : ∀ x, mo = some x → 1 ≤ x ∧ x ≤ 12) :
    ∃ y' mo' : Nat, 1000 ≤ y' ∧ y' ≤ 9999 ∧ 1 ≤ mo' ∧ mo' ≤ 12 ∧ y.getD (clock n).year = (y' : Int) ∧
      mo.getD (clock n).month = (mo' : Int) ∧
      Time.new (clock n) none none none none mo y = .ok ⟨none, ⟨y', mo', 1, 0, 0⟩⟩ := by
  obtain ⟨s1, s2, s3, s4⟩ := hs n
  have h1 : ∃ y' : Nat, 1000 ≤ y' ∧ y' ≤ 9999 ∧ y.getD (clock n).year = (y' : Int) := by
    cases y with
    | none => exact ⟨_, s1, s2, rfl⟩
    | some x =>
      have := hy x rfl
      exact ⟨x.toNat, by omega, by omega, by simp; omega⟩
  have h2 : ∃ m' : Nat, 1 ≤ m' ∧ m' ≤ 12 ∧ mo.getD (clock n).month = (m' : Int) := by
    cases mo with
    | none => exact ⟨_, s3, s4, rfl⟩
    | some x =>
      have := hm x rfl
      exact ⟨x.toNat, by omega, by omega, by simp; omega⟩
  obtain ⟨y', a1, a2, a3⟩ := h1
  obtain ⟨m', b1, b2, b3⟩ := h2
  exact ⟨y', m', a1, a2, b1, b2, a3, b3, Time.new_none a3 b3 a1 a2 b1 b2⟩

/-- The default validity of a TAF exists for every month of a four digit year. -/
theorem default_valid {y mo : Nat} (hy1 : 1000 ≤ y) (hy2 : y ≤ 9999) (hm1 : 1 ≤ mo)
    (hm2 : mo ≤ 12) : ∃ v, Valid.fromTaf none ⟨y, mo, 1, 0, 0⟩ = .ok v := by
  have hd := (dimL_pos (isLeap y) mo hm1 hm2).1
  have hval : (DT.mk y mo 1 0 0).valid = true := by
    rw [DT.valid_iff]
    refine ⟨⟨by simp only; omega, hy2, hm1, hm2, Nat.le_refl _, ?_⟩, by simp, by simp⟩
    simp only
    rw [daysInMonth_eq]
    omega
  have h1 : DT.addHours ⟨y, mo, 1, 0, 0⟩ 1 = .ok ⟨y, mo, 1, 1, 0⟩ := by
    refine addMinutes_iff.2 ⟨?_, by simp [DT.toMinutes]⟩
    rw [DT.valid_iff] at hval ⊢
    exact ⟨hval.1, by simp, by simp⟩
  have h2 : DT.addHours ⟨y, mo, 1, 1, 0⟩ 24 = .ok ⟨y, mo, 2, 1, 0⟩ := by
    refine addMinutes_iff.2 ⟨?_, by simp [DT.toMinutes, toOrd]; omega⟩
    rw [DT.valid_iff] at hval ⊢
    refine ⟨⟨hval.1.1, hy2, hm1, hm2, by simp, ?_⟩, by simp, by simp⟩
    simp only
    rw [daysInMonth_eq]
    omega
  refine ⟨⟨none, Time.ofDT ⟨y, mo, 1, 1, 0⟩, Time.ofDT ⟨y, mo, 2, 1, 0⟩⟩, ?_⟩
  unfold Valid.fromTaf
  have h0 : DT.replaceMinute ⟨y, mo, 1, 0, 0⟩ 0 = .ok ⟨y, mo, 1, 0, 0⟩ := rfl
  rw [h0, ok_bind]
  simp only
  rw [h1, ok_bind, h2, ok_bind]
  rfl

theorem station_total (db : Database) (g : PyStr) :
    ∃ s, Station.new db (some g) py!"ICAO" = .ok s := by
  exact ⟨_, rfl⟩

/-- C13, METAR. The group taken as time is `DDHHMMZ`. The report, if there is one, has exactly that
day, hour and minute in the requested year and month (those of the clock if none is requested); if
there is no such date-time, the constructor raises `ValueError`. -/
theorem C13_metar_time (db : Database) (clock : Clock) (code : PyStr) (a : Args) (y mo : Nat)
    (hy : a.year.getD (clock 2).year = (y : Int)) (hmo : a.month.getD (clock 2).month = (mo : Int))
    (hy1 : 1000 ≤ y) (hy2 : y ≤ 9999) (hm1 : 1 ≤ mo) (hm2 : mo ≤ 12)
    (c : List (PyStr × Nat))
    (hc : Spec.Decodes (Metar.handlers db (clock 2) a)
      (Spec.metarGroups (metarSections (normalizeCode code)).1) c)
    (g : PyStr) (hg : (g, 2) ∈ c) :
    ∃ d h i, g = d ++ h ++ i ++ py!"Z" ∧ d.length = 2 ∧ h.length = 2 ∧ i.length = 2 ∧
      Digits d ∧ Digits h ∧ Digits i ∧
      (∀ r, Metar.new db clock code a = .ok r →
        r.time.time = ⟨y, mo, digitsVal d, digitsVal h, digitsVal i⟩) ∧
      (¬ Spec.IsTime ⟨y, mo, digitsVal d, digitsVal h, digitsVal i⟩ → code ≠ [] → Sane clock →
        Metar.new db clock code a = .error .value) := by
  have hn : 10 ∉ g := by
    rw [(decodes_iff _ _ _).1 hc] at hg
    exact not_mem_splitC (Metar.bodyText_no_newline (normalizeCode_no_newline code)) g
      (consumed_mem hg)
  obtain ⟨hd, m, hh, hm⟩ := decodes_match hc hg
  cases hh
  obtain ⟨d, h, i, e, l1, l2, l3, e1, e2, e3, v1, v2⟩ := time_value hy hmo hy1 hy2 hm1 hm2 hm hn
  refine ⟨d, h, i, e, l1, l2, l3, e1, e2, e3, fun r hr => ?_, fun hv hc0 hs => ?_⟩
  · have hb : r.body = (metarSections (normalizeCode code)).1 := by
      obtain ⟨_, _, _, _, -, -, -, -, -, -, -, -, -, -, -, e5, -⟩ := Metar.new_reading hr
      unfold Metar.body
      rw [e5]; rfl
    rw [← hb] at hc
    obtain ⟨time, -, ho, hR, -⟩ := Metar.new_decodes hr hc
    rcases hR.time with ⟨g', m', hg', hm', hx⟩ | ⟨hno, -⟩
    · have : g' = g := Ordered.unique ho hg' hg
      subst this
      rw [hm] at hm'
      cases hm'
      by_cases hv : Spec.IsTime ⟨y, mo, digitsVal d, digitsVal h, digitsVal i⟩
      · simp only at hx
        rw [v1 hv] at hx
        injection hx with hx
        rw [← hx]
      · simp only at hx
        rw [v2 hv] at hx
        cases hx
    · exact absurd hg (hno g)
  · rw [Metar.new_eq db clock code a hc0]
    obtain ⟨_, _, -, -, -, -, -, -, ht0⟩ := default_time hs 0 none none (by simp) (by simp)
    obtain ⟨_, _, -, -, -, -, -, -, ht1⟩ := default_time hs 1 a.year a.month
      (fun x hx => by rw [hx] at hy; simp at hy; omega)
      (fun x hx => by rw [hx] at hmo; simp at hmo; omega)
    rw [ht0, ok_bind]
    have : Time.fromMetar (clock 1) none a.year a.month = _ := ht1
    rw [this, ok_bind]
    obtain ⟨out, un, h1, ho, h2⟩ := parseSection_runs (s := Metar.start (normalizeCode code) _)
      (text := Metar.bodyText (normalizeCode code)) hc
    have := h1.fails ho hg (e := .value) (by
      intro hd m' s hh hm'
      cases hh
      rw [hm] at hm'
      cases hm'
      simp only [Metar.handleTime, v2 hv, error_bind]) (by
      intro j hd hj hh m s
      have : j = 0 ∨ j = 1 := by omega
      rcases this with rfl | rfl <;> cases hh
      · exact ⟨_, rfl⟩
      · obtain ⟨st, hst⟩ := station_total db m.string
        simp only [Metar.handleStation, hst, ok_bind]
        exact ⟨_, rfl⟩)
    rw [h2, this]
    rfl

/-- C13, TAF. -/
theorem C13_taf_time (db : Database) (clock : Clock) (code : PyStr) (a : Args) (y mo : Nat)
    (hy : a.year.getD (clock 1).year = (y : Int)) (hmo : a.month.getD (clock 1).month = (mo : Int))
    (hy1 : 1000 ≤ y) (hy2 : y ≤ 9999) (hm1 : 1 ≤ mo) (hm2 : mo ≤ 12)
    (c : List (PyStr × Nat))
    (hc : Spec.Decodes (Taf.handlers db (clock 1) a)
      (Spec.bodyGroups (tafSections (normalizeCode code)).1) c)
    (g : PyStr) (hg : (g, 3) ∈ c) :
    ∃ d h i, g = d ++ h ++ i ++ py!"Z" ∧ d.length = 2 ∧ h.length = 2 ∧ i.length = 2 ∧
      Digits d ∧ Digits h ∧ Digits i ∧
      (∀ r, Taf.new db clock code a = .ok r →
        r.time.time = ⟨y, mo, digitsVal d, digitsVal h, digitsVal i⟩) ∧
      (¬ Spec.IsTime ⟨y, mo, digitsVal d, digitsVal h, digitsVal i⟩ → code ≠ [] → Sane clock →
        Taf.new db clock code a = .error .value) := by
  have hn : 10 ∉ g := by
    rw [(decodes_iff _ _ _).1 hc] at hg
    exact not_mem_splitC (Taf.bodyText_no_newline (normalizeCode_no_newline code)) g
      (consumed_mem hg)
  obtain ⟨hd, m, hh, hm⟩ := decodes_match hc hg
  cases hh
  obtain ⟨d, h, i, e, l1, l2, l3, e1, e2, e3, v1, v2⟩ := time_value hy hmo hy1 hy2 hm1 hm2 hm hn
  refine ⟨d, h, i, e, l1, l2, l3, e1, e2, e3, fun r hr => ?_, fun hv hc0 hs => ?_⟩
  · have hb : r.body = (tafSections (normalizeCode code)).1 := by
      obtain ⟨_, _, _, _, -, -, -, -, -, -, -, -, -, -, -, -, e5, -⟩ := Taf.new_reading hr
      exact e5
    rw [← hb] at hc
    obtain ⟨time, v, -, -, ho, hR, -⟩ := Taf.new_decodes hr hc
    rcases hR.time with ⟨g', m', hg', hm', hx⟩ | ⟨hno, -⟩
    · have : g' = g := Ordered.unique ho hg' hg
      subst this
      rw [hm] at hm'
      cases hm'
      by_cases hv : Spec.IsTime ⟨y, mo, digitsVal d, digitsVal h, digitsVal i⟩
      · simp only at hx
        rw [v1 hv] at hx
        injection hx with hx
        rw [← hx]
      · simp only at hx
        rw [v2 hv] at hx
        cases hx
    · exact absurd hg (hno g)
  · rw [Taf.new_eq db clock code a hc0]
    obtain ⟨y0, m0, b1, b2, b3, b4, -, -, ht0⟩ := default_time hs 0 none none (by simp) (by simp)
    obtain ⟨v0, hv0⟩ := default_valid b1 b2 b3 b4
    rw [ht0, ok_bind]
    simp only
    rw [hv0, ok_bind]
    obtain ⟨out, un, h1, ho, h2⟩ := parseSection_runs (s := Taf.start (normalizeCode code) _ v0)
      (text := Taf.bodyText (normalizeCode code)) hc
    have := h1.fails ho hg (e := .value) (by
      intro hd m' s hh hm'
      cases hh
      rw [hm] at hm'
      cases hm'
      simp only [Taf.handleTime, v2 hv, error_bind]) (by
      intro j hd hj hh m s
      have : j = 0 ∨ j = 1 ∨ j = 2 := by omega
      rcases this with rfl | rfl | rfl <;> cases hh
      · exact ⟨_, rfl⟩
      · exact ⟨_, rfl⟩
      · obtain ⟨st, hst⟩ := station_total db m.string
        simp only [Taf.handleStation, hst, ok_bind]
        exact ⟨_, rfl⟩)
    rw [h2, this]
    rfl

/-! ### C14 -/

/-- All the times of a METAR trend are existing date-times. -/
structure TrendTimes (p : ChangePeriod) : Prop where
  time : Spec.IsTime p.time
  init : Spec.IsTime p.indicator.init.time
  end_ : Spec.IsTime p.indicator.end_.time
  from_ : Spec.IsTime p.indicator.from_.time
  until_ : Spec.IsTime p.indicator.until_.time
  at_ : ∀ a, p.indicator.at_ = some a → Spec.IsTime a.time

/-- C14, METAR. -/
theorem C14_metar (db : Database) (clock : Clock) (code : PyStr) (a : Args) (r : Metar)
    (h : Metar.new db clock code a = .ok r) :
    Spec.IsTime r.time.time ∧ ∀ p ∈ r.weatherTrends.list, TrendTimes p := by
  have ht := Metar.time_valid h
  refine ⟨(isTime_iff _).2 ht, fun p hp => ?_⟩
  obtain ⟨_, _, _, _, -, -, -, -, -, -, -, e, -⟩ := Metar.new_reading h
  obtain ⟨t, -, hp⟩ := e.right p hp
  obtain ⟨⟨h1, h2, h3, h4, h5⟩, h6⟩ := ChangePeriod.new_valid ht hp
  exact ⟨(isTime_iff _).2 (h6 ▸ ht), (isTime_iff _).2 h1, (isTime_iff _).2 h2, (isTime_iff _).2 h3,
    (isTime_iff _).2 h4, fun a ha => (isTime_iff _).2 (h5 a ha)⟩

/-- C14, TAF. -/
theorem C14_taf (db : Database) (clock : Clock) (code : PyStr) (a : Args) (r : Taf)
    (h : Taf.new db clock code a = .ok r) :
    Spec.IsTime r.time.time ∧ Spec.IsTime r.valid.from_.time ∧ Spec.IsTime r.valid.until_.time ∧
    (∀ x ∈ r.maxTemperatures.list, Spec.IsTime x.time.time) ∧
    (∀ x ∈ r.minTemperatures.list, Spec.IsTime x.time.time) ∧
    ∀ c ∈ r.changes.list, Spec.IsTime c.valid.from_.time ∧ Spec.IsTime c.valid.until_.time ∧
      Spec.IsTime c.indicator.valid.from_.time ∧ Spec.IsTime c.indicator.valid.until_.time := by
  obtain ⟨ht, hv1, hv2⟩ := Taf.time_valid h
  obtain ⟨_, _, _, _, -, -, -, -, -, -, hR, ⟨cs0, e1, e2, -⟩, e3, -⟩ := Taf.new_reading h
  obtain ⟨ts, h1, h2, h3⟩ := hR.temperatures
  have hts : ∀ x ∈ ts, x.2.time.time.valid = true := by
    intro x hx
    obtain ⟨g, -, m, -, hm⟩ := Spec.Each.right h1 x hx
    simp only [tafTagged] at hm
    cases hn : TafTemperature.new m r.time.time with
    | error e => rw [hn] at hm; cases hm
    | ok y =>
      rw [hn] at hm
      cases hm
      exact TafTemperature.new_valid ht hn
  refine ⟨(isTime_iff _).2 ht, (isTime_iff _).2 hv1, (isTime_iff _).2 hv2, fun x hx => ?_, fun x hx => ?_,
    fun c hc => ?_⟩
  · rw [h2] at hx
    obtain ⟨y, hy, rfl⟩ := List.mem_map.1 hx
    exact (isTime_iff _).2 (hts y (List.mem_filter.1 hy).1)
  · rw [h3] at hx
    obtain ⟨y, hy, rfl⟩ := List.mem_map.1 hx
    exact (isTime_iff _).2 (hts y (List.mem_filter.1 hy).1)
  · have hcs : ∀ x ∈ cs0, x.indicator.valid.Exists := by
      intro x hx
      obtain ⟨t, -, hn⟩ := e1.right x hx
      exact (ChangeForecasted.new_valid ⟨hv1, hv2⟩ hn).1
    obtain ⟨i1, i2⟩ := Adds.chain_valid e2 hcs (by simp) c hc
    obtain ⟨t, -, x0, hn, i, s, rfl, -, -⟩ := e3.right c hc
    have he := (ChangeForecasted.new_valid ⟨hv1, hv2⟩ hn).2
    simp only [he]
    exact ⟨(isTime_iff _).2 hv1, (isTime_iff _).2 hv2, (isTime_iff _).2 i1, (isTime_iff _).2 i2⟩

/-! ### C15 -/

theorem fromMetar_clock (n1 n2 : Now) (m : Option Match) (y mo : Int) :
    Time.fromMetar n1 m (some y) (some mo) = Time.fromMetar n2 m (some y) (some mo) := by
  cases m <;> rfl

theorem metarHandlers_clock (db : Database) (n1 n2 : Now) (y mo : Int) (tr : Bool) :
    Metar.handlers db n1 ⟨some y, some mo, tr⟩ = Metar.handlers db n2 ⟨some y, some mo, tr⟩ := by
  have : Metar.handleTime n1 ⟨some y, some mo, tr⟩ = Metar.handleTime n2 ⟨some y, some mo, tr⟩ := by
    funext m s
    unfold Metar.handleTime
    rw [fromMetar_clock n1 n2]
  unfold Metar.handlers
  rw [this]

theorem tafHandlers_clock (db : Database) (n1 n2 : Now) (y mo : Int) (tr : Bool) :
    Taf.handlers db n1 ⟨some y, some mo, tr⟩ = Taf.handlers db n2 ⟨some y, some mo, tr⟩ := by
  have : Taf.handleTime n1 ⟨some y, some mo, tr⟩ = Taf.handleTime n2 ⟨some y, some mo, tr⟩ := by
    funext m s
    unfold Taf.handleTime
    rw [fromMetar_clock n1 n2]
  unfold Taf.handlers
  rw [this]

/-- C15, METAR. With a requested year and month, two clocks give the same report or the same
exception. -/
theorem C15_metar (db : Database) (clock clock' : Clock) (hs : Sane clock) (hs' : Sane clock')
    (code : PyStr) (y mo : Int) (tr : Bool) :
    Metar.new db clock code ⟨some y, some mo, tr⟩ = Metar.new db clock' code ⟨some y, some mo, tr⟩ := by
  by_cases hc : code = []
  · subst hc; rfl
  rw [Metar.new_eq _ _ _ _ hc, Metar.new_eq _ _ _ _ hc]
  obtain ⟨_, _, -, -, -, -, -, -, h1⟩ := default_time hs 0 none none (by simp) (by simp)
  obtain ⟨_, _, -, -, -, -, -, -, h2⟩ := default_time hs' 0 none none (by simp) (by simp)
  rw [h1, h2, ok_bind, ok_bind]
  simp only
  rw [fromMetar_clock (clock 1) (clock' 1), metarHandlers_clock db (clock 2) (clock' 2)]

/-- C15, TAF. The same holds when the body has a time group and a validity group. -/
theorem C15_taf (db : Database) (clock clock' : Clock) (hs : Sane clock) (hs' : Sane clock')
    (code : PyStr) (y mo : Int) (tr : Bool) (c : List (PyStr × Nat))
    (hd : Spec.Decodes (Taf.handlers db (clock 1) ⟨some y, some mo, tr⟩)
      (Spec.bodyGroups (tafSections (normalizeCode code)).1) c)
    (g v : PyStr) (hg : (g, 3) ∈ c) (hv : (v, 5) ∈ c) :
    Taf.new db clock code ⟨some y, some mo, tr⟩ = Taf.new db clock' code ⟨some y, some mo, tr⟩ := by
  by_cases hc : code = []
  · subst hc; rfl
  rw [Taf.new_eq _ _ _ _ hc, Taf.new_eq _ _ _ _ hc]
  obtain ⟨y1, m1, b1, b2, b3, b4, -, -, h1⟩ := default_time hs 0 none none (by simp) (by simp)
  obtain ⟨y2, m2, c1, c2, c3, c4, -, -, h2⟩ := default_time hs' 0 none none (by simp) (by simp)
  obtain ⟨v1, hv1⟩ := default_valid b1 b2 b3 b4
  obtain ⟨v2, hv2⟩ := default_valid c1 c2 c3 c4
  rw [h1, h2, ok_bind, ok_bind]
  simp only
  rw [hv1, hv2, ok_bind, ok_bind, tafHandlers_clock db (clock' 1) (clock 1)]
  have e1 := parseSection_absorb (text := Taf.bodyText (normalizeCode code))
    (s := Taf.start (normalizeCode code) ⟨none, ⟨y1, m1, 1, 0, 0⟩⟩ v1) hd hg
    (fun r => { r with time := ⟨none, ⟨y2, m2, 1, 0, 0⟩⟩ })
    (by intro h m s hh; cases hh; rfl)
    (by
      intro j h hj hh m s
      have : j = 0 ∨ j = 1 ∨ j = 2 := by omega
      rcases this with rfl | rfl | rfl <;> cases hh <;> rfl)
  have e2 := parseSection_absorb (text := Taf.bodyText (normalizeCode code))
    (s := Taf.start (normalizeCode code) ⟨none, ⟨y2, m2, 1, 0, 0⟩⟩ v1) hd hv (fun r => { r with valid := v2 })
    (by intro h m s hh; cases hh; rfl)
    (by
      intro j h hj hh m s
      have : j = 0 ∨ j = 1 ∨ j = 2 ∨ j = 3 ∨ j = 4 := by omega
      rcases this with rfl | rfl | rfl | rfl | rfl <;> cases hh
      · rfl
      · rfl
      · rfl
      · simp only [Taf.handleTime]
        cases Time.fromMetar (clock 1) (some m) (some y) (some mo) <;> rfl
      · rfl)
  exact congrArg (· >>= _) (e1.symm.trans e2.symm)

/-! ### Instances -/

def metarOk (clock : Clock) (code : PyStr) (a : Args := {}) : Option Metar :=
  match Metar.new sampleDb clock code a with
  | .ok r => some r
  | .error _ => none

def tafOk (clock : Clock) (code : PyStr) (a : Args := {}) : Option Taf :=
  match Taf.new sampleDb clock code a with
  | .ok r => some r
  | .error _ => none

def clock2025 : Clock := fun _ => ⟨2025, 2⟩

theorem sane_sample : Sane sampleClock ∧ Sane clock2025 := by
  constructor <;> intro n <;> simp [sampleClock, clock2025]

/-- The time group of a METAR of February 2024, a leap year; in 2023 the same text is refused, as is
the hour 24. -/
example : (metarOk sampleClock py!"METAR KJFK 291251Z 18004KT" ⟨some 2024, some 2, false⟩).map
      (·.time.time) = some ⟨2024, 2, 29, 12, 51⟩ ∧
    metarErr py!"METAR KJFK 291251Z 18004KT" ⟨some 2023, some 2, false⟩ = some .value ∧
    metarErr py!"METAR KJFK 102400Z 18004KT" = some .value := by decide +kernel

/-- The hypotheses of `C13_metar_time` for that text. -/
example : ∃ c, Spec.Decodes (Metar.handlers sampleDb (sampleClock 2) ⟨some 2023, some 2, false⟩)
    (Spec.metarGroups (metarSections (normalizeCode py!"METAR KJFK 291251Z 18004KT")).1) c ∧
    (py!"291251Z", 2) ∈ c :=
  ⟨_, (decodes_iff _ _ _).2 rfl, by decide +kernel⟩

/-- The same for a TAF, with a time group and a validity group (`C13_taf_time`, `C15_taf`). -/
example : ∃ c, Spec.Decodes (Taf.handlers sampleDb (sampleClock 1) ⟨some 2023, some 2, false⟩)
    (Spec.bodyGroups (tafSections (normalizeCode py!"TAF KJFK 291130Z 2912/3012 18004KT")).1) c ∧
    (py!"291130Z", 3) ∈ c ∧ (py!"2912/3012", 5) ∈ c :=
  ⟨_, (decodes_iff _ _ _).2 rfl, by decide +kernel⟩

/-- Times of a TAF across the end of a leap February. -/
example : (tafOk sampleClock py!"TAF KJFK 291130Z 2912/0112 18004KT TX12/2915Z FM291800 20010KT"
      ⟨some 2024, some 2, false⟩).map (fun r => [r.time.time, r.valid.from_.time, r.valid.until_.time] ++
        r.maxTemperatures.list.map (·.time.time) ++ r.changes.list.flatMap (fun c =>
          [c.indicator.valid.from_.time, c.indicator.valid.until_.time])) =
    some [⟨2024, 2, 29, 11, 30⟩, ⟨2024, 2, 29, 12, 0⟩, ⟨2024, 3, 1, 12, 0⟩, ⟨2024, 2, 29, 15, 0⟩,
      ⟨2024, 2, 29, 18, 0⟩, ⟨2024, 3, 1, 12, 0⟩] := by decide +kernel

/-- Times of a METAR trend across the end of a year. -/
example : (metarOk sampleClock py!"METAR KJFK 312330Z 18004KT TEMPO FM2345 TL0030 4000"
      ⟨some 2023, some 12, false⟩).map (fun r => (r.time.time,
        r.weatherTrends.list.map (fun p => (p.indicator.from_.time, p.indicator.until_.time)))) =
    some (⟨2023, 12, 31, 23, 30⟩, [(⟨2023, 12, 31, 23, 45⟩, ⟨2024, 1, 1, 0, 30⟩)]) := by
  decide +kernel

/-- Without a time group, a TAF shows the month of the clock whatever was requested. -/
theorem C15_taf_needs_time :
    ¬ ∀ (code : PyStr) (y mo : Int), Taf.new sampleDb sampleClock code ⟨some y, some mo, false⟩ =
      Taf.new sampleDb clock2025 code ⟨some y, some mo, false⟩ := by
  intro h
  have h1 : (tafOk sampleClock py!"TAF KJFK 1012/1112" ⟨some 2020, some 1, false⟩).map
      (·.time.time) = some ⟨2024, 6, 1, 0, 0⟩ := by decide +kernel
  have h2 : (tafOk clock2025 py!"TAF KJFK 1012/1112" ⟨some 2020, some 1, false⟩).map
      (·.time.time) = some ⟨2025, 2, 1, 0, 0⟩ := by decide +kernel
  have h3 : tafOk sampleClock py!"TAF KJFK 1012/1112" ⟨some 2020, some 1, false⟩ =
      tafOk clock2025 py!"TAF KJFK 1012/1112" ⟨some 2020, some 1, false⟩ := by
    unfold tafOk
    rw [h]
  rw [h3, h2] at h1
  exact absurd h1 (by decide)

/-- Without a validity group, the validity of a TAF follows the clock although it has a time. -/
theorem C15_taf_needs_valid :
    (tafOk sampleClock py!"TAF KJFK 101130Z 18004KT" ⟨some 2020, some 1, false⟩).map
      (fun r => (r.time.time, r.valid.from_.time)) = some (⟨2020, 1, 10, 11, 30⟩, ⟨2024, 6, 1, 1, 0⟩) ∧
    (tafOk clock2025 py!"TAF KJFK 101130Z 18004KT" ⟨some 2020, some 1, false⟩).map
      (fun r => (r.time.time, r.valid.from_.time)) = some (⟨2020, 1, 10, 11, 30⟩, ⟨2025, 2, 1, 1, 0⟩) := by
  decide +kernel

end Verif.Props
