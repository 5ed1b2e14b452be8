import Verif.Lemmas.Calendar
import Verif.Lemmas.Decoded
import Verif.Lemmas.Indicator

/- Every date-time the library builds exists. -/

namespace Verif

theorem strptime_valid {s : PyStr} {t : DT} (h : strptime s = .ok t) : t.valid = true := by
  unfold strptime at h
  split at h
  · cases h
  · simp only at h
    split at h
    · cases h
    · split at h
      · next hv => cases h; exact hv
      · cases h

theorem Time.new_valid {now : Now} {code minute hour day : Option PyStr} {month year : Option Int}
    {t : Time} (h : Time.new now code minute hour day month year = .ok t) : t.time.valid = true := by
  unfold Time.new at h
  simp only at h
  split at h
  · cases h
  · next t' ht => cases h; exact strptime_valid ht

theorem Time.fromMetar_valid {now : Now} {m : Option Match} {year month : Option Int} {t : Time}
    (h : Time.fromMetar now m year month = .ok t) : t.time.valid = true := by
  cases m <;> exact Time.new_valid h

theorem replaceMinute_ok {t t' : DT} {n : Nat} (h : t.replaceMinute n = .ok t') :
    n ≤ 59 ∧ t' = { t with minute := n } := by
  unfold DT.replaceMinute at h
  split at h
  · next hn => cases h; exact ⟨hn, rfl⟩
  · cases h

theorem replaceHour_ok {t t' : DT} {n : Nat} (h : t.replaceHour n = .ok t') :
    n ≤ 23 ∧ t' = { t with hour := n } := by
  unfold DT.replaceHour at h
  split at h
  · next hn => cases h; exact ⟨hn, rfl⟩
  · cases h

theorem replaceMinute_valid {t t' : DT} {n : Nat} (hv : t.valid = true)
    (h : t.replaceMinute n = .ok t') : t'.valid = true := by
  obtain ⟨h1, rfl⟩ := replaceMinute_ok h
  rw [DT.valid_iff] at hv ⊢
  exact ⟨hv.1, hv.2.1, h1⟩

theorem replaceHour_valid {t t' : DT} {n : Nat} (hv : t.valid = true)
    (h : t.replaceHour n = .ok t') : t'.valid = true := by
  obtain ⟨h1, rfl⟩ := replaceHour_ok h
  rw [DT.valid_iff] at hv ⊢
  exact ⟨hv.1, h1, hv.2.2⟩

theorem onDay_valid {t t' : DT} {d : Nat} (hv : t.valid = true) (h : t.onDay d = .ok t') :
    t'.valid = true := by
  unfold DT.onDay at h
  split at h
  · rw [pure_ok] at h; rw [← h]; exact hv
  · exact (addMinutes_ok h).1

/-- Both ends of the period exist. -/
def Valid.Exists (v : Valid) : Prop := v.from_.time.valid = true ∧ v.until_.time.valid = true

theorem Valid.fromTaf_valid {m : Option Match} {t : DT} {v : Valid} (hv : t.valid = true)
    (h : Valid.fromTaf m t = .ok v) : v.Exists := by
  unfold Valid.fromTaf at h
  simp only [bind_ok] at h
  obtain ⟨t0, h0, h⟩ := h
  cases m with
  | none =>
    simp only [bind_ok, pure_ok] at h
    obtain ⟨f, h1, u, h2, rfl⟩ := h
    exact ⟨(addMinutes_ok h1).1, (addMinutes_ok h2).1⟩
  | some m =>
    simp only [bind_ok] at h
    obtain ⟨a, -, b, -, c, -, d, -, f, h1, u, h2, h⟩ := h
    have hv0 := replaceMinute_valid hv h0
    have hf := onDay_valid hv0 h1
    have hu := onDay_valid hv0 h2
    split at h
    · simp only [bind_ok, pure_ok] at h
      obtain ⟨u', h3, f', h4, u'', h5, rfl⟩ := h
      exact ⟨replaceHour_valid hf h4, replaceHour_valid (addMinutes_ok h3).1 h5⟩
    · simp only [bind_ok, pure_ok] at h
      obtain ⟨u', h3, f', h4, u'', h5, rfl⟩ := h
      subst h3
      exact ⟨replaceHour_valid hf h4, replaceHour_valid hu h5⟩

theorem TafTemperature.new_valid {m : Match} {t : DT} {x : TafTemperature} (hv : t.valid = true)
    (h : TafTemperature.new m t = .ok x) : x.time.time.valid = true := by
  unfold TafTemperature.new at h
  simp only [bind_ok, pure_ok] at h
  obtain ⟨t0, h0, v, -, d, -, hr, -, t1, h1, t2, h2, rfl⟩ := h
  exact onDay_valid (replaceHour_valid (replaceMinute_valid hv h0) h1) h2

/-! ### Trends -/

/-- All times of the indicator exist. -/
def TrendIndicator.Exists (t : TrendIndicator) : Prop :=
  t.init.time.valid = true ∧ t.end_.time.valid = true ∧ t.from_.time.valid = true ∧
    t.until_.time.valid = true ∧ ∀ a, t.at_ = some a → a.time.valid = true

theorem TrendIndicator.new_valid {m : Option Match} {t : DT} {i : TrendIndicator}
    (hv : t.valid = true) (h : TrendIndicator.new m t = .ok i) : i.Exists := by
  unfold TrendIndicator.new at h
  simp only [bind_ok, pure_ok] at h
  obtain ⟨⟨c, tr⟩, -, e, h1, rfl⟩ := h
  exact ⟨hv, (addMinutes_ok h1).1, hv, (addMinutes_ok h1).1, by simp⟩

theorem TrendIndicator.addPeriod_valid {m : Match} {i i' : TrendIndicator} (hv : i.Exists)
    (h : i.addPeriod m = .ok i') : i'.Exists := by
  unfold TrendIndicator.addPeriod at h
  simp only [bind_ok] at h
  obtain ⟨c, -, mid, -, hr, -, mi, -, x, hx, h⟩ := h
  have hxv : x.valid = true := by
    unfold TrendIndicator.periodTime at hx
    split at hx
    · exact (addMinutes_ok hx).1
    · split at hx <;> exact (addMinutes_ok hx).1
  obtain ⟨h1, h2, h3, h4, h5⟩ := hv
  split at h
  · rw [pure_ok] at h; subst h; exact ⟨h1, h2, hxv, h4, h5⟩
  · split at h <;> rw [pure_ok] at h <;> subst h
    · exact ⟨h1, h2, h3, hxv, h5⟩
    · refine ⟨h1, h2, h3, h4, ?_⟩
      rintro a ⟨⟩
      exact hxv

theorem ChangePeriod.new_valid {code : PyStr} {t : DT} {p : ChangePeriod} (hv : t.valid = true)
    (h : ChangePeriod.new code t = .ok p) : p.indicator.Exists ∧ p.time = t := by
  obtain ⟨ind, asg, p1, e0, -, -, e3, e4, -, e6, -, e8⟩ := ChangePeriod.new_reading h
  obtain ⟨t0, h1, h2⟩ := ChangePeriod.indicator_reading e3 e4
  refine ⟨?_, e8⟩
  have hp : p.indicator = p1.indicator := by rw [e6]
  rw [hp]
  have h0 : t0.Exists := by
    rcases h1 with ⟨g, m, -, -, hx⟩ | ⟨-, hx⟩
    · exact TrendIndicator.new_valid hv hx
    · rw [hx]; exact TrendIndicator.new_valid hv e0
  clear hp h1
  generalize p1.indicator = t1 at h2
  generalize Spec.taken _ 1 2 = l at h2
  induction h2 with
  | nil => exact h0
  | cons hs _ ih =>
    obtain ⟨m, -, hs⟩ := hs
    exact ih (TrendIndicator.addPeriod_valid h0 hs)

/-! ### TAF changes -/

theorem findDay_ok {day : Nat} {f : Nat} {t t' : DT} (hv : t.valid = true)
    (h : findDay day f t = .ok t') : t'.valid = true := by
  induction f generalizing t with
  | zero => cases h
  | succ f ih =>
    unfold findDay at h
    split at h
    · cases h; exact hv
    · split at h
      · cases h
      · next t1 h1 => exact ih (addMinutes_ok h1).1 h

theorem TafIndicator.new_valid {m : Option Match} {v : Valid} {i : TafIndicator} (hv : v.Exists)
    (h : TafIndicator.new m v = .ok i) : i.valid.Exists := by
  unfold TafIndicator.new at h
  cases m with
  | none => cases h; exact hv
  | some m =>
    simp only at h
    split at h
    · simp only [bind_ok, pure_ok] at h
      obtain ⟨d, -, hr, -, mi, -, t, h1, t1, h2, t2, h3, rfl⟩ := h
      exact ⟨replaceMinute_valid (replaceHour_valid (findDay_ok hv.1 h1) h2) h3, hv.2⟩
    · simp only [bind_ok, pure_ok] at h
      obtain ⟨⟨c, tr⟩, -, rfl⟩ := h
      exact hv

theorem TafIndicator.setValidPeriod_valid {i i' : TafIndicator} {m : Match} {t : Time}
    (hv : t.time.valid = true) (h : i.setValidPeriod m t = .ok i') : i'.valid.Exists := by
  unfold TafIndicator.setValidPeriod at h
  simp only [bind_ok] at h
  obtain ⟨v, h1, h⟩ := h
  have := Valid.fromTaf_valid hv h1
  split at h
  · cases h
  · split at h <;> rw [pure_ok] at h <;> subst h <;> exact this

theorem ChangeForecasted.new_valid {code : PyStr} {v : Valid} {p : ChangeForecasted}
    (hv : v.Exists) (h : ChangeForecasted.new code v = .ok p) :
    p.indicator.valid.Exists ∧ p.valid = v := by
  obtain ⟨asg, p1, -, -, e3, e4, -, e6, -, e8⟩ := ChangeForecasted.new_reading h
  obtain ⟨t0, h1, h2⟩ := ChangeForecasted.indicator_reading e3 e4
  refine ⟨?_, e8⟩
  have hp : p.indicator = p1.indicator := by rw [e6]
  rw [hp]
  rcases h2 with ⟨g, m, -, -, hx⟩ | ⟨-, hx⟩
  · exact TafIndicator.setValidPeriod_valid hv.1 hx
  · rw [hx]
    rcases h1 with ⟨g, m, -, -, hx⟩ | ⟨-, hx⟩
    · exact TafIndicator.new_valid hv hx
    · rw [hx]; exact hv

theorem Adds.valid {c : ChangeForecasted} {l l' : List ChangeForecasted} (h : Adds c l l')
    (hc : c.indicator.valid.Exists) (hl : ∀ x ∈ l, x.indicator.valid.Exists) :
    ∀ x ∈ l', x.indicator.valid.Exists := by
  obtain ⟨l1, rfl, h1, h2⟩ := h
  have hl1 : ∀ x ∈ l1, x.indicator.valid.Exists := by
    by_cases hs : startsWith c.code py!"FM" = true ∨ startsWith c.code py!"BECMG" = true
    · rcases h1 hs with ⟨-, rfl⟩ | ⟨pre, x, x', post, rfl, rfl, -, -, -, -, h3⟩
      · exact hl
      · have hx : x'.indicator.valid.Exists := by
          rcases h3 with ⟨-, i, hi, rfl⟩ | ⟨-, rfl⟩
          · obtain ⟨-, hf, t, ht, cd, -, e1, e2⟩ := TafIndicator.resetUntil_ok hi
            have hxv := hl x (by simp)
            by_cases hfm : startsWith cd py!"FM" = true
            · have e := e1 hfm
              simp only
              rw [e]
              exact ⟨hxv.1, (addMinutes_ok ht).1⟩
            · have e := e2 hfm
              simp only
              rw [e]
              exact hxv
          · exact hl _ (by simp)
        intro y hy
        rcases List.mem_append.1 hy with hy | hy
        · exact hl y (by simp [hy])
        · rcases List.mem_cons.1 hy with rfl | hy
          · exact hx
          · exact hl y (by simp [hy])
    · rw [h2 hs]; exact hl
  intro y hy
  rcases List.mem_append.1 hy with hy | hy
  · exact hl1 y hy
  · rw [List.mem_singleton.1 hy]; exact hc

theorem Adds.chain_valid {cs l l' : List ChangeForecasted} (h : Spec.Chain Adds cs l l')
    (hc : ∀ x ∈ cs, x.indicator.valid.Exists) (hl : ∀ x ∈ l, x.indicator.valid.Exists) :
    ∀ x ∈ l', x.indicator.valid.Exists := by
  induction h with
  | nil => exact hl
  | @cons c cs l l1 l2 h1 _ ih =>
    exact ih (fun x hx => hc x (by simp [hx])) (h1.valid (hc c (by simp)) hl)

/-! ### Reports -/

theorem Metar.time_valid {db : Database} {clock : Clock} {code : PyStr} {a : Args} {r : Metar}
    (h : Metar.new db clock code a = .ok r) : r.time.time.valid = true := by
  obtain ⟨t0, time, asg, r1, -, h1, -, -, -, -, hR, -⟩ := Metar.new_reading h
  rcases hR.time with ⟨g, m, -, -, hx⟩ | ⟨-, hx⟩
  · exact Time.fromMetar_valid hx
  · rw [hx]; exact Time.fromMetar_valid h1

theorem Taf.time_valid {db : Database} {clock : Clock} {code : PyStr} {a : Args} {r : Taf}
    (h : Taf.new db clock code a = .ok r) : r.time.time.valid = true ∧ r.valid.Exists := by
  obtain ⟨time, v, asg, r1, h1, h2, -, -, -, -, hR, -⟩ := Taf.new_reading h
  have h0 := Time.new_valid h1
  have ht : r.time.time.valid = true := by
    rcases hR.time with ⟨g, m, -, -, hx⟩ | ⟨-, hx⟩
    · exact Time.fromMetar_valid hx
    · rw [hx]; exact h0
  refine ⟨ht, ?_⟩
  rcases hR.valid with ⟨g, m, -, -, hx⟩ | ⟨-, hx⟩
  · exact Valid.fromTaf_valid ht hx
  · rw [hx]; exact Valid.fromTaf_valid h0 h2

end Verif
