import Verif.Lemmas.Captures
import Verif.Lemmas.Except
import Verif.Lemmas.Str
import Verif.Lemmas.Frame
import Verif.Lemmas.ReprRead
import Verif.Props.Direction

/-
Which exceptions the decoding of a matched group can raise.
-/

namespace Verif

/-! ### Assertions on code lengths -/

theorem Direction.new_total {o : Option PyStr} (h : ∀ c, o = some c → c.length = 3 ∨ c.length = 2) :
    ∃ d, Direction.new o = .ok d := by
  unfold Direction.new
  cases o with
  | none => exact ⟨_, rfl⟩
  | some c =>
    simp only
    by_cases hc : c = py!"//"
    · subst hc; exact ⟨_, rfl⟩
    · simp only [if_neg hc]
      have hl : (if c.length = 2 then c ++ py!"0" else c).length = 3 := by
        rcases h c rfl with h | h
        · simp [h]
        · simp [h]
      rw [if_neg (by simpa using hl)]
      split
      · exact ⟨_, rfl⟩
      · exact ⟨_, rfl⟩

theorem speed_total {o : Option PyStr} (h : ∀ c, o = some c → 2 ≤ c.length) :
    ∃ v, speed o = .ok v := by
  cases o with
  | none => exact ⟨_, rfl⟩
  | some c =>
    unfold speed
    simp only
    by_cases hc : c = py!"//"
    · subst hc; exact ⟨_, rfl⟩
    · simp only [if_neg hc]
      have h2 := h c rfl
      have hl : 3 ≤ (if c.length = 2 then py!"0" ++ c else c).length := by
        split
        · simp; omega
        · omega
      rw [if_neg (by omega)]
      exact ⟨_, rfl⟩

theorem mps2kt_length (o : Option PyStr) : 2 ≤ (mps2kt o).length := by
  unfold mps2kt
  split
  · decide
  · split
    · decide
    · exact Nat.le_trans (by decide) (repr_length _)

/-- The four groups a wind pattern must have. -/
structure WindLike (r : RE) : Prop where
  dir : r.grpAll .dir (lenIn [3]) = true
  speed : r.grpAll .speed (lenIn [2, 3]) = true
  gust : r.grpAll .gust (lenIn [2, 3]) = true

theorem windLike_metar : WindLike MetarRegExp.WIND :=
  ⟨by decide +kernel, by decide +kernel, by decide +kernel⟩
theorem windLike_taf : WindLike TafRegExp.WIND :=
  ⟨by decide +kernel, by decide +kernel, by decide +kernel⟩

theorem MetarWind.new_total {r : RE} (hr : WindLike r) {g : PyStr} {m : Match}
    (hm : r.match g = some m) : ∃ w, MetarWind.new m = .ok w := by
  unfold MetarWind.new
  obtain ⟨d, hd⟩ := Direction.new_total (o := m.group .dir) (fun c hc => by
    have := RE.grp_length hr.dir hm hc
    simp at this; omega)
  have hs : ∀ n, r.grpAll n (lenIn [2, 3]) = true →
      ∃ v, Verif.speed (if (decide (m.group .units = some py!"MPS")) = true
        then some (mps2kt (m.group n)) else m.group n) = .ok v := by
    intro n hn
    apply speed_total
    intro c hc
    split at hc
    · cases hc
      exact mps2kt_length _
    · have := RE.grp_length hn hm hc
      simp at this; omega
  obtain ⟨v, hv⟩ := hs _ hr.speed
  obtain ⟨w, hw⟩ := hs _ hr.gust
  simp only [hd, hv, hw, ok_bind]
  exact ⟨_, rfl⟩

theorem WindVariation.new_total {g : PyStr} {m : Match}
    (hm : MetarRegExp.WIND_VARIATION.match g = some m) : ∃ w, WindVariation.new m = .ok w := by
  unfold WindVariation.new
  obtain ⟨d, hd⟩ := Direction.new_total (o := m.group .from_) (fun c hc => by
    have := RE.grp_length (ls := [3]) (by decide +kernel) hm hc
    simp at this; omega)
  obtain ⟨e, he⟩ := Direction.new_total (o := m.group .to) (fun c hc => by
    have := RE.grp_length (ls := [3]) (by decide +kernel) hm hc
    simp at this; omega)
  simp only [hd, he, ok_bind]
  exact ⟨_, rfl⟩

/-- Two characters, none of them a minus sign. -/
def tempShape (ks : List CC) : Bool := ks.length == 2 && avoids 45 ks

theorem tempShape_sound {ks : List CC} (h : tempShape ks = true) {s : PyStr} (hs : HasShape ks s) :
    s.length = 2 ∧ 45 ∉ s := by
  simp only [tempShape, Bool.and_eq_true, beq_iff_eq] at h
  exact ⟨by rw [hs.length, h.1], avoids_sound h.2 hs⟩

theorem temperature_total {c : PyStr} (hl : c.length = 2) (hn : 45 ∉ c) :
    (∃ v, temperature (some c) = .ok v) ∧ ∃ v, temperature (some (py!"-" ++ c)) = .ok v := by
  have key : ∀ t : PyStr, (replace t py!"-" []).length = 2 →
      ∃ v, (if (replace (if (replace t py!"-" []).length = 2 then t ++ py!"0" else t) py!"-" []).length
        ≠ 3 then (.error .assertion : Except Exc (Option F64))
        else .ok ((floatOf (if (replace t py!"-" []).length = 2 then t ++ py!"0" else t)).map
          fun x => x.div (F64.ofNat 10))) = .ok v := by
    intro t ht
    simp only [if_pos ht]
    rw [if_neg]
    · exact ⟨_, rfl⟩
    · rw [replace_char_nil] at ht ⊢
      rw [List.filter_append, List.length_append, ht]
      decide
  have hf : c.filter (· ≠ 45) = c := by
    rw [List.filter_eq_self]
    intro x hx
    simp only [decide_eq_true_eq]
    rintro rfl
    exact hn hx
  constructor
  · unfold temperature
    simp only
    by_cases hc : c = py!"//" ∨ c = py!"///"
    · simp only [if_pos hc]
      exact ⟨_, rfl⟩
    · simp only [if_neg hc]
      apply key
      rw [replace_char_nil, hf, hl]
  · unfold temperature
    simp only
    have h1 : ¬ (py!"-" ++ c = py!"//" ∨ py!"-" ++ c = py!"///") := by
      rintro (h | h) <;> simp at h
    simp only [if_neg h1]
    apply key
    rw [replace_char_nil]
    simp only [List.singleton_append]
    rw [List.filter_cons_of_neg (by simp), hf, hl]

theorem fmtO_some (c : PyStr) : fmtO (some c) = c := rfl

theorem setTemperature_total {r : RE} {n : Cap} {sign : Option PyStr} {g : PyStr} {m : Match}
    (hm : r.match g = some m) (h1 : r.must n = true) (h2 : r.grpAll n tempShape = true) :
    ∃ v, setTemperature (m.group n) sign = .ok v := by
  obtain ⟨c, hc⟩ := RE.must_group h1 hm
  obtain ⟨ks, hk, hs⟩ := RE.grpAll_sound h2 hm hc
  obtain ⟨hl, hn⟩ := tempShape_sound hk hs
  unfold setTemperature
  rw [hc, fmtO_some]
  split
  · exact (temperature_total hl hn).2
  · exact (temperature_total hl hn).1

theorem Temperatures.new_total {g : PyStr} {m : Match}
    (hm : MetarRegExp.TEMPERATURES.match g = some m) : ∃ t, Temperatures.new m = .ok t := by
  unfold Temperatures.new
  obtain ⟨v, hv⟩ := setTemperature_total (n := .temp) (sign := m.group .tsign) hm
    (by decide +kernel) (by decide +kernel)
  obtain ⟨w, hw⟩ := setTemperature_total (n := .dewpt) (sign := m.group .dsign) hm
    (by decide +kernel) (by decide +kernel)
  simp only [hv, hw, ok_bind]
  exact ⟨_, rfl⟩

theorem SeaState.new_total {g : PyStr} {m : Match}
    (hm : MetarRegExp.SEA_STATE.match g = some m) : ∃ t, SeaState.new m = .ok t := by
  have h := fun sign => setTemperature_total (n := .temp) (sign := sign) hm
    (by decide +kernel) (by decide +kernel)
  obtain ⟨v, hv⟩ := h (m.group .sign)
  have hv' : seaTemperature (m.group .temp) (m.group .sign) = .ok v := hv
  unfold SeaState.new
  simp only [hv', ok_bind]
  exact ⟨_, rfl⟩

theorem MetarPressure.new_total {g : PyStr} {m : Match}
    (hm : MetarRegExp.PRESSURE.match g = some m) : ∃ p, MetarPressure.new m = .ok p := by
  obtain ⟨c, hc⟩ := RE.must_group (n := .press) (by decide +kernel) hm
  obtain ⟨ks, hk, hs⟩ := RE.grpShapes_sound (n := .press)
    (shapes := [List.replicate 4 .digit, litShape py!"////"]) (by decide +kernel) hm hc
  unfold MetarPressure.new
  simp only [hc]
  simp only [List.mem_cons, List.not_mem_nil, or_false] at hk
  rcases hk with rfl | rfl
  · have hd := hs.digits
    have hne : c ≠ [] := by
      rintro rfl
      simp at hd
    have h1 : ¬ (some c = some py!"////") := by
      intro h
      cases h
      exact absurd (hd.1 47 (by simp)) (by decide)
    simp only [if_neg h1, pyFloat_digits hne hd.1, ok_bind]
    exact ⟨_, rfl⟩
  · rw [hasShape_lit_iff.1 hs]
    exact ⟨_, rfl⟩

theorem RunwayRange.new_total {g : PyStr} {m : Match}
    (hm : MetarRegExp.RUNWAY_RANGE.match g = some m) : ∃ x, RunwayRange.new m = .ok x := by
  have h : ∀ n, MetarRegExp.RUNWAY_RANGE.grpAll n someDigits = true →
      ∃ v, setRange (m.group n) (m.group .units) = .ok v := by
    intro n hn
    unfold setRange
    cases hc : m.group n with
    | none => exact ⟨_, rfl⟩
    | some c =>
      obtain ⟨h1, h2⟩ := RE.grp_digits hn hm hc
      simp only
      split
      · simp only [pyFloat_digits h1 h2, ok_bind]
        exact ⟨_, rfl⟩
      · exact ⟨_, rfl⟩
  obtain ⟨v, hv⟩ := h .low (by decide +kernel)
  obtain ⟨w, hw⟩ := h .high (by decide +kernel)
  unfold RunwayRange.new
  simp only [hv, hw, ok_bind]
  exact ⟨_, rfl⟩

theorem Cloud.fromMetar_total {g : PyStr} {m : Match}
    (hm : MetarRegExp.CLOUD.match g = some m) : ∃ c, Cloud.fromMetar m = .ok c := by
  unfold Cloud.fromMetar
  cases hc : m.group .height with
  | none => exact ⟨_, rfl⟩
  | some c =>
    obtain ⟨ks, hk, hs⟩ := RE.grpShapes_sound (n := .height)
      (shapes := [List.replicate 3 .digit, litShape py!"///"]) (by decide +kernel) hm hc
    simp only [List.mem_cons, List.not_mem_nil, or_false] at hk
    rcases hk with rfl | rfl
    · have hd := hs.digits
      have h1 : ¬ (c = py!"///") := by
        rintro rfl
        exact absurd (hd.1 47 (by simp)) (by decide)
      have h2 : Digits (c ++ py!"00") := hd.1.append (by unfold Digits; decide)
      simp only [if_neg h1, pyFloat_digits (s := c ++ py!"00") (by simp) h2, ok_bind]
      exact ⟨_, rfl⟩
    · rw [hasShape_lit_iff.1 hs]
      exact ⟨_, rfl⟩

/-! ### Visibility -/

/-- The exceptions the decoding of a visibility group can raise. -/
def VisExc (e : Exc) : Prop := e = .value ∨ e = .type ∨ e = .zeroDiv

theorem fromCardinal_raises (c : PyStr) : Raises (· = .value) (Direction.fromCardinal c) := by
  intro e he
  by_cases h : c ∈ compassDirs.map (·.1)
  · exfalso
    have : ∀ c ∈ compassDirs.map (·.1), ∃ d, Direction.fromCardinal c = .ok d := by
      have hd : ∀ c ∈ compassDirs.map (·.1),
          (match Direction.fromCardinal c with | .ok _ => true | .error _ => false) = true := by
        decide +kernel
      intro c hc
      have := hd c hc
      cases hx : Direction.fromCardinal c with
      | ok d => exact ⟨d, rfl⟩
      | error e => rw [hx] at this; cases this
    obtain ⟨d, hd⟩ := this c h
    rw [hd] at he
    cases he
  · have hN : c ≠ py!"N" := by
      rintro rfl
      exact h (by decide)
    unfold Direction.fromCardinal at he
    rw [if_neg hN] at he
    cases hl : compassDirs.lookup c with
    | none => rw [hl] at he; cases he; rfl
    | some ab =>
      exact absurd (List.mem_map.2 ⟨(c, ab), lookup_mem hl, rfl⟩) h

theorem visDirection_raises (dir : Option PyStr) : Raises (· = .value) (visDirection dir) := by
  unfold visDirection
  split
  · exact fromCardinal_raises _
  · exact Raises.ok _

theorem minimumVisibility_raises (m : Match) : Raises (· = .value) (minimumVisibility m) := by
  unfold minimumVisibility
  exact Raises.bind (visDirection_raises _) fun _ _ => Raises.pure _

structure VisLike (r : RE) : Prop where
  integer : r.grpAll .integer someDigits = true
  fraction : r.grpShapes .fraction [[.digit, CC.one 47, .digit]] = true

theorem visLike_metar : VisLike MetarRegExp.VISIBILITY := ⟨by decide +kernel, by decide +kernel⟩
theorem visLike_taf : VisLike TafRegExp.VISIBILITY := ⟨by decide +kernel, by decide +kernel⟩

/-- The texts of the numerator and the denominator. -/
theorem fraction_parts {f : PyStr} (h : HasShape [.digit, CC.one 47, .digit] f) :
    ∃ a b, isDigit a = true ∧ isDigit b = true ∧ f = [a, 47, b] ∧ splitC 47 f = [[a], [b]] := by
  obtain ⟨a, t, rfl, ha, s, u, rfl, hs, b, v, rfl, hb, hv⟩ := h
  cases hv
  have h47 : s = 47 := CC.mem_one.1 hs
  subst h47
  have hne : ∀ x, isDigit x = true → x ≠ 47 := by
    rintro x hx rfl
    exact absurd hx (by decide)
  refine ⟨a, b, ha, hb, rfl, ?_⟩
  simp [splitC, hne a ha, hne b hb]

theorem fromSeaMiles_raises {r : RE} (hr : VisLike r) {g : PyStr} {m : Match}
    (hm : r.match g = some m) :
    Raises (· = .zeroDiv) (fromSeaMiles (m.group .integer) (m.group .fraction)) := by
  unfold fromSeaMiles
  refine Raises.bind ?_ fun fr _ => Raises.bind ?_ fun _ _ => Raises.pure _
  · unfold fractionOf
    split
    · cases hf : m.group .fraction with
      | none => simp_all [strTruthy]
      | some f =>
        obtain ⟨ks, hk, hs⟩ := RE.grpShapes_sound hr.fraction hm hf
        simp only [List.mem_singleton] at hk
        subst hk
        obtain ⟨a, b, ha, hb, rfl, hsp⟩ := fraction_parts hs
        simp only [Option.getD_some, hsp, List.getElem?_cons_zero, List.getElem?_cons_succ,
          pyInt_digits (s := [a]) (by simp) (by simpa [Digits] using ha),
          pyInt_digits (s := [b]) (by simp) (by simpa [Digits] using hb), ok_bind]
        split
        · exact Raises.error rfl
        · exact Raises.pure _
    · exact Raises.pure _
  · unfold addInteger
    split
    · cases hi : m.group .integer with
      | none => simp_all [strTruthy]
      | some i =>
        obtain ⟨h1, h2⟩ := RE.grp_digits hr.integer hm hi
        simp only [pyFloat_digits h1 h2, ok_bind]
        exact Raises.pure _
    · exact Raises.pure _

theorem pyInt_raises {r : RE} (hr : VisLike r) {g : PyStr} {m : Match} (hm : r.match g = some m) :
    Raises (· = .type) (pyInt (m.group .integer)) := by
  cases hi : m.group .integer with
  | none => exact Raises.error rfl
  | some i =>
    obtain ⟨h1, h2⟩ := RE.grp_digits hr.integer hm hi
    rw [pyInt_digits h1 h2]
    exact Raises.ok _

theorem prevailing_raises {r : RE} (hr : VisLike r) {g : PyStr} {m : Match}
    (hm : r.match g = some m) : Raises VisExc (prevailing m) := by
  unfold prevailing
  refine Raises.bind ?_ fun v _ => Raises.bind ?_ fun d _ => ?_
  · unfold prevailingSize
    simp only
    split
    · split
      · exact (fromSeaMiles_raises hr hm).mono fun e h => .inr (.inr h)
      · split
        · exact Raises.bind ((pyInt_raises hr hm).mono fun e h => .inr (.inl h))
            fun _ _ => Raises.pure _
        · exact Raises.pure _
    · exact Raises.pure _
  · exact (visDirection_raises _).mono fun e h => .inl h
  · split <;> exact Raises.pure _

/-! ### Times -/

theorem strptime_raises (s : PyStr) : Raises (· = .value) (strptime s) := by
  intro e he
  unfold strptime at he
  split at he
  · cases he; rfl
  · split at he
    · cases he; rfl
    · simp only at he
      split at he
      · cases he
      · cases he; rfl

theorem Time.new_raises (now : Now) (c mi h d : Option PyStr) (mo y : Option Int) :
    Raises (· = .value) (Time.new now c mi h d mo y) := by
  intro e he
  unfold Time.new at he
  simp only at he
  split at he
  · next e' h' =>
    cases he
    exact strptime_raises _ _ h'
  · cases he

theorem Time.fromMetar_raises (now : Now) (m : Option Match) (y mo : Option Int) :
    Raises (· = .value) (Time.fromMetar now m y mo) := by
  unfold Time.fromMetar
  cases m <;> exact Time.new_raises _ _ _ _ _ _ _

theorem addMinutes_raises (t : DT) (k : Int) : Raises (· = .overflow) (t.addMinutes k) := by
  intro e he
  unfold DT.addMinutes at he
  simp only at he
  split at he
  · cases he
  · cases he; rfl

theorem findDay_raises (d f : Nat) (t : DT) : Raises (· = .overflow) (findDay d f t) := by
  induction f generalizing t with
  | zero => exact Raises.error rfl
  | succ f ih =>
    unfold findDay
    split
    · exact Raises.ok _
    · cases h : t.addDays 1 with
      | error e => exact Raises.error (addMinutes_raises _ _ _ h)
      | ok t' => exact ih t'

theorem replaceHour_total {t : DT} {n : Nat} (h : n ≤ 23) : ∃ t', t.replaceHour n = .ok t' := by
  unfold DT.replaceHour
  rw [if_pos h]; exact ⟨_, rfl⟩

theorem replaceMinute_total {t : DT} {n : Nat} (h : n ≤ 59) : ∃ t', t.replaceMinute n = .ok t' := by
  unfold DT.replaceMinute
  rw [if_pos h]; exact ⟨_, rfl⟩

theorem onDay_raises (t : DT) (d : Nat) : Raises (· = .overflow) (t.onDay d) := by
  unfold DT.onDay
  split
  · exact Raises.pure _
  · exact addMinutes_raises _ _

theorem Valid.fromTaf_none_raises (t : DT) : Raises (· = .overflow) (Valid.fromTaf none t) := by
  unfold Valid.fromTaf
  obtain ⟨t', ht⟩ := replaceMinute_total (t := t) (n := 0) (by omega)
  rw [ht, ok_bind]
  exact Raises.bind (addMinutes_raises _ _) fun _ _ => Raises.bind (addMinutes_raises _ _)
    fun _ _ => Raises.pure _

theorem Valid.fromTaf_raises {g : PyStr} {m : Match} (hm : TafRegExp.VALID.match g = some m)
    (t : DT) : Raises (· = .overflow) (Valid.fromTaf (some m) t) := by
  unfold Valid.fromTaf
  obtain ⟨t', ht⟩ := replaceMinute_total (t := t) (n := 0) (by omega)
  rw [ht, ok_bind]
  obtain ⟨_, _, _, _, h1⟩ := pyInt_group (n := .fmday) (b := 39) (by decide +kernel)
    (by decide +kernel) hm
  obtain ⟨_, _, _, hfh, h2⟩ := pyInt_group (n := .fmhour) (b := 23) (by decide +kernel)
    (by decide +kernel) hm
  obtain ⟨_, _, _, _, h3⟩ := pyInt_group (n := .tlday) (b := 39) (by decide +kernel)
    (by decide +kernel) hm
  obtain ⟨th, _, _, hth, h4⟩ := pyInt_group (n := .tlhour) (b := 24) (by decide +kernel)
    (by decide +kernel) hm
  simp only [h1, h2, h3, h4, ok_bind]
  refine Raises.bind (onDay_raises _ _) fun f _ => Raises.bind (onDay_raises _ _) fun u _ => ?_
  obtain ⟨f', hf'⟩ := replaceHour_total (t := f) hfh
  split
  · refine Raises.bind (addMinutes_raises _ _) fun u _ => ?_
    obtain ⟨u', hu'⟩ := replaceHour_total (t := u) (n := 0) (by omega)
    simp only [hf', hu', ok_bind]
    exact Raises.pure _
  · rw [pure_bind]
    obtain ⟨u', hu'⟩ := replaceHour_total (t := u) (n := digitsVal th) (by omega)
    simp only [hf', hu', ok_bind]
    exact Raises.pure _

theorem TafTemperature.new_raises {g : PyStr} {m : Match}
    (hm : TafRegExp.TEMPERATURE.match g = some m) (t : DT) :
    Raises (· = .overflow) (TafTemperature.new m t) := by
  unfold TafTemperature.new
  obtain ⟨t', ht⟩ := replaceMinute_total (t := t) (n := 0) (by omega)
  rw [ht, ok_bind]
  obtain ⟨_, _, _, _, h1⟩ := pyInt_group (n := .day) (b := 39) (by decide +kernel)
    (by decide +kernel) hm
  obtain ⟨_, _, _, hh, h2⟩ := pyInt_group (n := .hour) (b := 23) (by decide +kernel)
    (by decide +kernel) hm
  obtain ⟨t2, ht2⟩ := replaceHour_total (t := t') hh
  obtain ⟨c, hc⟩ := RE.must_group (n := .temp) (by decide +kernel) hm
  obtain ⟨ks, hk, hs⟩ := RE.grpAll_sound (n := .temp) (p := tempShape) (by decide +kernel) hm hc
  obtain ⟨hl, hn⟩ := tempShape_sound hk hs
  rw [hc]
  obtain ⟨⟨v, hv⟩, ⟨w, hw⟩⟩ := temperature_total hl hn
  have : ∃ x, tafTemperature (some c) (m.group .sign) = .ok x := by
    unfold tafTemperature
    rw [fmtO_some]
    split
    · exact ⟨w, hw⟩
    · exact ⟨v, hv⟩
  obtain ⟨x, hx⟩ := this
  simp only [h1, h2, ht2, hx, ok_bind]
  exact Raises.bind (onDay_raises _ _) fun _ _ => Raises.pure _

end Verif
