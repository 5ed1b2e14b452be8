import Verif.Props.Changes
import Verif.Props.Periods
import Verif.Props.Indicators
import Verif.Spec.Timeline

/-
The time line of a TAF (C102).
-/

namespace Verif.Props
open Verif Verif.Spec

/-! ### C102 -/

theorem Built.back {cs l : List ChangeForecasted} (h : Built cs l) {k : Nat} {x : ChangeForecasted}
    (hk : l[k]? = some x) : ∃ x0, cs[k]? = some x0 ∧ SameChange x0 x := by
  have hlt := (List.getElem?_eq_some_iff.1 hk).1
  rw [h.1] at hlt
  obtain ⟨x', h1, h2, -⟩ := h.2 k _ (List.getElem?_eq_getElem hlt)
  rw [hk] at h1
  cases h1
  exact ⟨_, List.getElem?_eq_getElem hlt, h2⟩

theorem SameChange.ending {x0 x : ChangeForecasted} (h : SameChange x0 x) : Ending x ↔ Ending x0 := by
  unfold Ending
  rw [h.1]

theorem midnight_le (t : DT) : minutes (midnight t) ≤ minutes t := by
  unfold minutes midnight
  simp only
  omega

/-- C102. An FM change ends one hour before the next FM or BECMG change starts, whatever PROB and TEMPO
changes are between the two. Hence it ends before it starts exactly if the other starts less than an hour
after it. -/
theorem C102_closed (db : Database) (clock : Clock) (code : PyStr) (a : Args) (r : Taf)
    (h : Taf.new db clock code a = .ok r) (k j : Nat) (x y : ChangeForecasted) (hkj : k < j)
    (hx : r.changes.list[k]? = some x) (hy : r.changes.list[j]? = some y) (hf : IsFm x) (he : Ending y)
    (hp : ¬ Passing y)
    (hb : ∀ i z, k < i → i < j → r.changes.list[i]? = some z → Passing z) :
    After y.indicator.valid.from_.time (-60) x.indicator.valid.until_.time ∧
    (stopOf x < startOf x ↔
      startOf y < startOf x + 60) := by
  obtain ⟨cs, -, hB⟩ := C46_report db clock code a r h
  obtain ⟨x0, hx0, sx⟩ := hB.back hx
  obtain ⟨y0, hy0, sy⟩ := hB.back hy
  have hc : ClosedBy cs k j := by
    refine ⟨hkj, ⟨y0, hy0, sy.ending.1 he⟩, ⟨x0, hx0, (sx.begins _).1 hf⟩, fun i z0 h1 h2 hz => ?_⟩
    obtain ⟨z, hz', sz, -⟩ := hB.2 i z0 hz
    exact sz.passing.1 (hb i z h1 h2 hz')
  have hl : ∀ j', j < j' → ¬ ClosedBy cs k j' := by
    rintro j' hj ⟨-, -, -, hpass⟩
    exact hp (sy.passing.2 (hpass j y0 hkj hj hy0))
  obtain ⟨x', hx', -, -, hcl⟩ := hB.2 k x0 hx0
  rw [hx] at hx'
  cases hx'
  obtain ⟨t, ht, hi⟩ := hcl j y0 hy0 hc hl
  have hu : x.indicator.valid.until_.time = t := by rw [hi]; rfl
  have hs : y.indicator.valid.from_ = y0.indicator.valid.from_ := sy.2.2.2.2.2
  rw [← hs] at ht
  rw [← hu] at ht
  refine ⟨ht, ?_⟩
  have := ht.2
  unfold stopOf startOf
  omega

/-- C102. Every change starts on the day the validity of the report starts, or later. -/
theorem C102_start (db : Database) (clock : Clock) (code : PyStr) (a : Args) (r : Taf)
    (h : Taf.new db clock code a = .ok r) (x : ChangeForecasted) (hx : x ∈ r.changes.list) :
    minutes (midnight r.valid.from_.time) ≤ startOf x := by
  have hv := (Taf.time_valid h).2.1
  obtain ⟨c, hc⟩ : ∃ c, Decodes ChangeForecasted.handlers (changeGroups x.code) c :=
    ⟨_, (decodes_iff _ _ _).2 rfl⟩
  obtain ⟨f1, f2⟩ := C43_change db clock code a r h x hx c hc
  unfold startOf
  by_cases h1 : ∃ g, (g, 1) ∈ c
  · obtain ⟨g, hg⟩ := h1
    obtain ⟨w, hw, rfl⟩ := f1 g hg
    obtain ⟨-, -, t1, -⟩ := f2 w hw hg
    have := takes_minutes t1
    unfold hourOf at this
    split at this <;> omega
  · have hno : ∀ g, (g, 1) ∉ c := fun g hg => h1 ⟨g, hg⟩
    by_cases h0 : ∃ g, (g, 0) ∈ c ∧ startsWith g py!"FM" = true
    · obtain ⟨g, hg, hf⟩ := h0
      obtain ⟨w, rest, hw, -, ⟨b, hb, hu⟩, -⟩ := C45_report db clock code a r h x hx c hc g hg hf hno
      have := hb.notBefore
      have := hu.2
      omega
    · obtain ⟨p1, ho, hr, ⟨i, s, hxe, hi1, hi2, -⟩, -, -, hn⟩ := Taf.change_decodes h hx hc
      obtain ⟨t0, g0, g1⟩ := ChangeForecasted.indicator_reading hr ho
      have hp : p1.indicator = t0 := g1.absent hno
      have hxi : x.indicator = i := by rw [hxe]
      have hval : t0.valid = r.valid := by
        rcases g0 with ⟨g, m, hg, hm, e⟩ | ⟨-, e⟩
        · have hms := RE.match_string hm
          have : startsWith m.string py!"FM" = false := by
            rw [hms]
            cases hb : startsWith g py!"FM" with
            | false => rfl
            | true => exact absurd ⟨g, hg, hb⟩ h0
          unfold TafIndicator.new at e
          simp only [this, Bool.false_eq_true, if_false, bind_ok, pure_ok] at e
          obtain ⟨⟨cc, tr⟩, -, e⟩ := e
          rw [← e]
          rfl
        · rw [e]
          rfl
      rw [hxi, hi2]
      simp only [hp, hval]
      have := midnight_le r.valid.from_.time
      omega

/-- C102. At no instant two FM changes are in force, and none is in force in the hour before an FM or BECMG
change (its first and last minute aside). -/
theorem C102_one (db : Database) (clock : Clock) (code : PyStr) (a : Args) (r : Taf)
    (h : Taf.new db clock code a = .ok r) (hreg : Regular r.changes.list)
    (hord : InTimeOrder r.changes.list) :
    (∀ (k j : Nat) x y u, k < j → r.changes.list[k]? = some x → r.changes.list[j]? = some y → IsFm x →
      IsFm y → ¬ (InForce x u ∧ InForce y u)) ∧
    (∀ (j : Nat) y u, r.changes.list[j]? = some y → Ending y →
      startOf y < minutes u + 60 → minutes u < startOf y →
      ∀ (k : Nat) x, r.changes.list[k]? = some x → IsFm x → ¬ InForce x u) := by
  have fm_ending : ∀ x ∈ r.changes.list, IsFm x → Ending x := by
    intro x hx hf
    rcases hreg x hx with ⟨hp, -⟩ | ⟨-, he⟩
    · exfalso
      obtain ⟨t, ht, t1, rfl⟩ := hf
      rcases hp with ⟨t', ht', t2, rfl⟩ | ⟨t', ht', t2, rfl⟩ <;>
      · rw [ht] at ht'
        simp at ht'
    · exact he
  have key : ∀ (k j : Nat) x y, k < j → r.changes.list[k]? = some x → r.changes.list[j]? = some y → IsFm x →
      Ending y → stopOf x + 60 ≤ startOf y := by
    intro k j x y hkj hx hy hf he
    have step : ∀ n i, i = k + 1 + n → i ≤ j →
        (∀ i' z, k < i' → i' < i → r.changes.list[i']? = some z → Passing z) ∨
        ∃ i' z, k < i' ∧ i' < i ∧ r.changes.list[i']? = some z ∧ ¬ Passing z ∧
          ∀ i'' z, k < i'' → i'' < i' → r.changes.list[i'']? = some z → Passing z := by
      intro n
      induction n with
      | zero => intro i hi _; exact .inl fun i' z h1 h2 => by omega
      | succ n ih =>
        intro i hi hij
        rcases ih (k + 1 + n) rfl (by omega) with hall | ⟨i', z, h1, h2, h3⟩
        · by_cases hz : ∃ z, r.changes.list[k + 1 + n]? = some z ∧ ¬ Passing z
          · obtain ⟨z, hz, hp⟩ := hz
            exact .inr ⟨k + 1 + n, z, by omega, by omega, hz, hp, hall⟩
          · refine .inl fun i' z h1 h2 hz' => ?_
            by_cases e : i' = k + 1 + n
            · subst e
              exact Classical.byContradiction fun hp => hz ⟨z, hz', hp⟩
            · exact hall i' z h1 (by omega) hz'
        · exact .inr ⟨i', z, h1, by omega, h3⟩
    have hyp : ¬ Passing y := by
      rcases hreg y (List.mem_of_getElem? hy) with ⟨-, h1⟩ | ⟨h1, -⟩
      · exact absurd he h1
      · exact h1
    rcases step (j - k - 1) j (by omega) (Nat.le_refl _) with hall | ⟨i, z, h1, h2, hz, hp, hall⟩
    · have := (C102_closed db clock code a r h k j x y hkj hx hy hf he hyp hall).1.2
      unfold stopOf startOf
      omega
    · have hez : Ending z := by
        rcases hreg z (List.mem_of_getElem? hz) with ⟨h1, -⟩ | ⟨-, h1⟩
        · exact absurd h1 hp
        · exact h1
      have e1 := (C102_closed db clock code a r h k i x z h1 hx hz hf hez hp hall).1.2
      have e2 := hord i j z y h2 hz hy hez he
      unfold stopOf startOf at *
      omega
  refine ⟨fun k j x y u hkj hx hy hf hg ⟨i1, i2⟩ => ?_, fun j y u hy he h1 h2 k x hx hf i1 => ?_⟩
  · have := key k j x y hkj hx hy hf (fm_ending y (List.mem_of_getElem? hy) hg)
    have := i1.2
    have := i2.1
    omega
  · by_cases hkj : k < j
    · have := key k j x y hkj hx hy hf he
      have := i1.2
      omega
    · by_cases e : k = j
      · subst e
        rw [hx] at hy
        cases hy
        have := i1.1
        omega
      · have := hord j k y x (by omega) hy hx he (fm_ending x (List.mem_of_getElem? hx) hf)
        have := i1.1
        omega

/-! ### Instances -/

/-- `Regular`, computed. -/
def regularB (l : List ChangeForecasted) : Bool :=
  l.all fun x =>
    let passing := x.indicator.code.any fun t => startsWith t py!"PROB" || startsWith t py!"TEMPO"
    let ending := startsWith x.code py!"FM" || startsWith x.code py!"BECMG"
    passing != ending

theorem regular_of {l : List ChangeForecasted} (h : regularB l = true) : Regular l := by
  intro x hx
  have h := List.all_eq_true.1 h x hx
  have hp : (x.indicator.code.any fun t => startsWith t py!"PROB" || startsWith t py!"TEMPO") = true ↔
      Passing x := by
    unfold Passing IndicatorBegins
    cases x.indicator.code with
    | none => simp
    | some t => simp [startsWith_begins]
  have he := ending_iff (c := x)
  rw [← Bool.or_eq_true] at he
  rw [← hp, ← he]
  revert h
  cases (x.indicator.code.any fun t => startsWith t py!"PROB" || startsWith t py!"TEMPO") <;>
    cases (startsWith x.code py!"FM" || startsWith x.code py!"BECMG") <;> simp

/-- `InTimeOrder`, computed from the minutes of the FM and BECMG changes. -/
def inTimeOrderB (l : List ChangeForecasted) : Bool :=
  (List.range l.length).all fun k => (List.range l.length).all fun j =>
    !decide (k < j) || match l[k]?, l[j]? with
      | some x, some y => decide (startOf x ≤ startOf y) || !(startsWith x.code py!"FM" ||
          startsWith x.code py!"BECMG") || !(startsWith y.code py!"FM" || startsWith y.code py!"BECMG")
      | _, _ => true

theorem inTimeOrder_of {l : List ChangeForecasted} (h : inTimeOrderB l = true) : InTimeOrder l := by
  intro k j x y hkj hx hy ex ey
  have hk := (List.getElem?_eq_some_iff.1 hx).1
  have hj := (List.getElem?_eq_some_iff.1 hy).1
  have h := List.all_eq_true.1 (List.all_eq_true.1 h k (List.mem_range.2 hk)) j (List.mem_range.2 hj)
  have ex := ending_iff.2 ex
  have ey := ending_iff.2 ey
  rw [← Bool.or_eq_true] at ex ey
  rw [hx, hy] at h
  simpa only [ex, ey, hkj, decide_true, Bool.not_true, Bool.false_or, Bool.or_false, decide_eq_true_eq] using h

/-- A report that meets the hypotheses: three FM changes and a BECMG with TEMPO and PROB changes among
them. The hours from 1400, 1800 and 0100 are in no FM change. -/
example : (tafOk sampleClock py!"TAF KJFK 101130Z 1012/1112 18004KT FM101500 20010KT TEMPO 1016/1018 3000 FM101900 24010KT PROB30 1020/1022 TSRA BECMG 1102/1104 27005KT FM110900 30008KT").map
      (fun r => (regularB r.changes.list && inTimeOrderB r.changes.list,
        r.changes.list.map fun c => (c.indicator.valid.from_.time, c.indicator.valid.until_.time))) =
    some (true, [(⟨2024, 6, 10, 15, 0⟩, ⟨2024, 6, 10, 18, 0⟩), (⟨2024, 6, 10, 16, 0⟩, ⟨2024, 6, 10, 18, 0⟩),
      (⟨2024, 6, 10, 19, 0⟩, ⟨2024, 6, 11, 1, 0⟩), (⟨2024, 6, 10, 20, 0⟩, ⟨2024, 6, 10, 22, 0⟩),
      (⟨2024, 6, 11, 2, 0⟩, ⟨2024, 6, 11, 4, 0⟩), (⟨2024, 6, 11, 9, 0⟩, ⟨2024, 6, 11, 12, 0⟩)]) := by
  decide +kernel

/-- An FM change half an hour before the next one ends before it starts. -/
example : (tafOk sampleClock py!"TAF KJFK 101130Z 1012/1112 18004KT FM101500 20010KT FM101530 24010KT").map
      (fun r => r.changes.list.map fun c => (c.indicator.valid.from_.time, c.indicator.valid.until_.time)) =
    some [(⟨2024, 6, 10, 15, 0⟩, ⟨2024, 6, 10, 14, 30⟩), (⟨2024, 6, 10, 15, 30⟩, ⟨2024, 6, 11, 12, 0⟩)] := by
  decide +kernel

/-- C102. That a change starts before the report ends is false of the library: FM changes are looked for on
any later day. -/
theorem C102_within_false : ¬ ∀ (clock : Clock) (code : PyStr) (r : Taf), tafOk clock code = some r →
    ∀ x ∈ r.changes.list, startOf x ≤ minutes r.valid.until_.time := by
  intro h
  have hd : (match tafOk sampleClock py!"TAF KJFK 101130Z 1012/1112 18004KT FM091500 20010KT" with
      | some r => match r.changes.list with
        | [x] => decide (minutes r.valid.until_.time < startOf x)
        | _ => false
      | none => false) = true := by decide +kernel
  split at hd
  · next r hr =>
    split at hd
    · next x hx =>
      have := h _ _ r hr x (by rw [hx]; simp)
      have := of_decide_eq_true hd
      omega
    · cases hd
  · cases hd

/-- C102. Without the order of the starts two FM changes may be in force together: the search of the first
one is not affected by the second. -/
theorem C102_order_needed : ¬ ∀ (clock : Clock) (code : PyStr) (r : Taf), tafOk clock code = some r →
    Regular r.changes.list → ∀ (k j : Nat) x y u, k < j → r.changes.list[k]? = some x →
      r.changes.list[j]? = some y → IsFm x → IsFm y → ¬ (InForce x u ∧ InForce y u) := by
  intro h
  have hd : (match tafOk sampleClock
        py!"TAF KJFK 101130Z 1012/1112 18004KT FM101500 20010KT FM102000 24010KT FM101600 24010KT" with
      | some r => match r.changes.list with
        | [x, y, z] => decide (regularB [x, y, z] = true ∧ startOf x ≤ startOf z ∧ startOf z ≤ stopOf x ∧
            z.indicator.valid.from_.time = ⟨2024, 6, 10, 16, 0⟩ ∧ startOf z ≤ stopOf z ∧
            (x.indicator.code.any fun t => startsWith t py!"FM") = true ∧
            (z.indicator.code.any fun t => startsWith t py!"FM") = true)
        | _ => false
      | none => false) = true := by decide +kernel
  have fm : ∀ x : ChangeForecasted, (x.indicator.code.any fun t => startsWith t py!"FM") = true → IsFm x := by
    intro x
    unfold IsFm IndicatorBegins
    cases x.indicator.code with
    | none => simp
    | some t => simp [startsWith_begins]
  split at hd
  · next r hr =>
    split at hd
    · next x y z hl =>
      obtain ⟨h1, h2, h3, h4, h5, h6, h7⟩ := of_decide_eq_true hd
      refine h _ _ r hr (by rw [hl]; exact regular_of h1) 0 2 x z z.indicator.valid.from_.time (by omega)
        (by rw [hl]; rfl) (by rw [hl]; rfl) (fm x h6) (fm z h7) ⟨⟨h2, h3⟩, Nat.le_refl _, h5⟩
    · cases hd
  · cases hd

end Verif.Props
