import Verif.Spec.Bounds
import Verif.Spec.Wind
import Verif.Spec.Visibility
import Verif.Spec.CloudReport
import Verif.Spec.Temperatures
import Verif.Spec.Runway
import Verif.Lemmas.Digits
import Verif.Lemmas.Float

/-
The ranges of the numbers that the groups state.
-/

namespace Verif
open Spec

theorem Spec.Between.none {lo hi : Rat} : Between lo hi none := by intro x h; cases h

theorem Spec.Between.whole {lo hi : Rat} {n : Nat} (h1 : lo ≤ n) (h2 : (n : Rat) ≤ hi) :
    Between lo hi (some (whole n)) := by
  intro x h; cases h; exact ⟨h1, h2⟩

theorem Spec.Between.mono {lo hi lo' hi' : Rat} {o : Option F64} (h : Between lo hi o) (h1 : lo' ≤ lo)
    (h2 : hi ≤ hi') : Between lo' hi' o := by
  intro x hx
  have := h x hx
  grind

theorem natCast_le {a b : Nat} (h : a ≤ b) : (a : Rat) ≤ (b : Rat) := by exact_mod_cast h

theorem cast_nonneg (n : Nat) : (0 : Rat) ≤ n := by exact_mod_cast Nat.zero_le n

/-- A number of at most `k` digits. -/
theorem digits_le {ds : PyStr} {k b : Nat} (h : ds.length ≤ k) (hb : 10 ^ k - 1 ≤ b) : (digitsVal ds : Rat) ≤ b := by
  refine natCast_le ?_
  have h1 := digitsVal_lt ds
  have h2 : 10 ^ ds.length ≤ 10 ^ k := Nat.pow_le_pow_right (by omega) h
  omega

/-- A number close to one that lies between `0` and `b`. -/
theorem Spec.Rel.between {e x y b hi : Rat} (h : Rel e x y) (he : 0 ≤ e) (he' : e ≤ 1) (hb : y ≤ b)
    (hhi : b + e * b ≤ hi) : Between 0 hi (some ⟨x, false⟩) := by
  intro z hz
  cases hz
  obtain ⟨h0, h1, h2⟩ := h
  have p : e * y ≤ e * b := Rat.mul_le_mul_of_nonneg_left hb he
  have q : e * y ≤ 1 * y := Rat.mul_le_mul_of_nonneg_right he' h0
  simp only
  grind

theorem knots_between {mps : Bool} {o : Option Nat} {v : Option F64} (h : Knots mps o v)
    (ho : ∀ n, o = some n → n ≤ 999) : Between 0 1942 v := by
  cases o with
  | none => unfold Knots at h; simp only at h; rw [h]; exact .none
  | some n =>
    have hn : (n : Rat) ≤ 999 := natCast_le (ho n rfl)
    have h0 := cast_nonneg n
    unfold Knots at h
    simp only at h
    cases mps
    · simp only [Bool.false_eq_true, if_false] at h
      rw [h]
      exact .whole h0 (by grind)
    · simp only [if_true] at h
      obtain ⟨x, rfl, hr⟩ := h
      refine hr.between (b := 38839 / 20) (by decide +kernel) (by decide +kernel) ?_ (by decide +kernel)
      have : (n : Rat) / (51444444 / 100000000) = n * (100000000 / 51444444) := by grind
      rw [this]
      have p := Rat.mul_le_mul_of_nonneg_right hn (c := (100000000 / 51444444 : Rat)) (by decide +kernel)
      refine Rat.le_trans p (by decide +kernel)

theorem wind_between {w : WindGroup} {x : MetarWind} (hw : w.WF) (h : WindSays w x) :
    Between 0 360 x.direction.value ∧ Between 0 1942 x.speed ∧ Between 0 1942 x.gust := by
  obtain ⟨-, h1, h2, h3⟩ := h
  obtain ⟨w1, w2, w3⟩ := hw
  have two : ∀ ds, TwoOrThreeDigits ds → digitsVal ds ≤ 999 := by
    intro ds hd
    have := digitsVal_lt ds
    rcases hd.1 with e | e <;> rw [e] at this <;> omega
  refine ⟨?_, knots_between h2 ?_, knots_between h3 ?_⟩
  · rw [h1]
    cases hd : w.dir with
    | tens n =>
      rw [hd] at w1
      have w1 : n ≤ 36 := w1
      exact .whole (cast_nonneg _) (natCast_le (by omega : 10 * n ≤ 360))
    | undef => exact .none
    | vrb => exact .none
  · intro n hn
    cases hs : w.speed with
    | digits ds => rw [hs] at w2 hn; cases hn; exact two _ w2
    | undef2 => rw [hs] at hn; cases hn
    | undef3 => rw [hs] at hn; cases hn
  · intro n hn
    unfold WindGroup.gustNumber at hn
    obtain ⟨⟨p, ds⟩, hg, rfl⟩ := Option.map_eq_some_iff.1 hn
    exact two _ (w3 p ds hg)

theorem variation_between {w : VariationGroup} {x : WindVariation} (hw : w.WF) (h : variationGrammar.Says w x) :
    Between 10 360 x.from_.value ∧ Between 10 360 x.to.value := by
  obtain ⟨-, h1, h2⟩ := h
  obtain ⟨w1, w2, w3, w4⟩ := hw
  rw [h1, h2]
  exact ⟨.whole (natCast_le (by omega : 10 ≤ _)) (natCast_le (by omega : _ ≤ 360)),
    .whole (natCast_le (by omega : 10 ≤ _)) (natCast_le (by omega : _ ≤ 360))⟩

theorem degrees_between (g : VisGroup) (x : Visibility) (h : VisSays g x) : Between 45 360 x.direction.value := by
  rw [h.2.1]
  have all : ∀ d, ∀ n, (visSuffixes.lookup d).getD none = some n → 45 ≤ n ∧ n ≤ 360 := by
    intro d n hn
    cases hl : visSuffixes.lookup d with
    | none => rw [hl] at hn; cases hn
    | some o =>
      rw [hl] at hn
      have hm : (d, o) ∈ visSuffixes := by
        have : ∀ l : List (PyStr × Option Nat), l.lookup d = some o → (d, o) ∈ l := by
          intro l
          induction l with
          | nil => intro h; cases h
          | cons p l ih =>
            obtain ⟨k, v⟩ := p
            intro h
            rw [List.lookup_cons] at h
            split at h
            · next hk => cases h; rw [eq_of_beq hk]; exact List.mem_cons_self ..
            · exact List.mem_cons_of_mem _ (ih h)
        exact this _ hl
      have : ∀ p ∈ visSuffixes, ∀ n, p.2 = some n → 45 ≤ n ∧ n ≤ 360 := by decide
      exact this _ hm n hn
  cases hd : g.degrees with
  | none => exact .none
  | some n =>
    have : 45 ≤ n ∧ n ≤ 360 := by
      unfold VisGroup.degrees at hd
      split at hd
      · exact all _ _ hd
      · cases hd
    exact .whole (natCast_le this.1) (natCast_le this.2)

theorem metres_between {v : Metres} (hv : v.WF) : Between 0 10000 (v.number.map whole) := by
  cases v with
  | undef => exact .none
  | digits ds =>
    refine .whole (cast_nonneg _) ?_
    split
    · decide
    · exact digits_le (k := 4) (by rw [hv.1]; omega) (by decide)

theorem vis_between {g : VisGroup} {x : Visibility} (hg : g.WF) (h : VisSays g x) : Between 0 200017 x.vis := by
  have h := h.1
  cases g with
  | metres v d =>
    have h : x.vis = v.number.map whole := h
    rw [h]
    exact (metres_between hg.1).mono (by decide) (by decide)
  | cavok =>
    have h : x.vis = some (whole 10000) := h
    rw [h]
    exact .whole (by decide) (by decide)
  | range r =>
    have hg : r.WF := hg
    unfold VisGroup.SaysMetres at h
    simp only at h
    split at h
    · split at h
      · rw [h]; exact .none
      · obtain ⟨v, hv, hr⟩ := h
        rw [hv]
        have h1 : wholePart r.integer ≤ 99 := by
          cases hi : r.integer with
          | none => exact (by decide : (0 : Rat) ≤ 99)
          | some ds => exact digits_le (k := 2) (by have := (hg.1 ds hi).1; omega) (by decide)
        have h2 : fractionPart r.fraction ≤ 9 := by
          cases hf : r.fraction with
          | none => exact (by decide : (0 : Rat) ≤ 9)
          | some p =>
            obtain ⟨a, b⟩ := p
            have ha : digitVal a ≤ 9 := by
              have := digitsVal_lt [a]
              have e : digitsVal [a] = digitVal a := by simp [digitsVal]
              rw [e] at this
              simp at this
              omega
            show (digitVal a : Rat) / (digitVal b : Rat) ≤ 9
            rcases Nat.eq_zero_or_pos (digitVal b) with hb | hb
            · rw [hb]
              have : (digitVal a : Rat) / ((0 : Nat) : Rat) = 0 := by simp [Rat.div_def]
              rw [this]; decide
            · have ha' : (digitVal a : Rat) ≤ 9 := natCast_le ha
              have hb' : (1 : Rat) ≤ digitVal b := natCast_le hb
              have hi : (digitVal b : Rat) * (digitVal b : Rat)⁻¹ = 1 := Rat.mul_inv_cancel _ (by grind)
              have h0 : (0 : Rat) ≤ (digitVal b : Rat)⁻¹ := Rat.le_of_lt (Rat.inv_pos.2 (by grind))
              have h1 := Rat.mul_le_mul_of_nonneg_right hb' h0
              have h2 := Rat.mul_le_mul_of_nonneg_right ha' h0
              rw [Rat.div_def]
              grind
        refine hr.between (b := 200016) (by decide +kernel) (by decide +kernel) ?_ (by decide +kernel)
        unfold Range.amount
        grind
    · rw [h]
      cases hi : r.integer with
      | none => exact .none
      | some ds =>
        have := digitsVal_lt ds
        have hl := (hg.1 ds hi).1
        have : digitsVal ds ≤ 99 := by
          rcases hl with e | e <;> rw [e] at this <;> omega
        exact .whole (cast_nonneg _) (natCast_le (by omega : _ ≤ 200017))
    · rw [h]; exact .none
    · rw [h]; exact .none

theorem minVis_between {g : VisGroup} {x : Visibility} (hg : minVisGrammar.WF g) (h : VisSays g x) :
    Between 0 10000 x.vis := by
  obtain ⟨hw, v, d, rfl⟩ := hg
  have h : x.vis = v.number.map whole := h.1
  rw [h]
  exact metres_between hw.1

theorem cloud_between {l : Layer} {c : Cloud} (hl : l.WF) (h : CloudSays l c) : Between 0 30450 c.height := by
  cases hb : l.base.hundredsOfFeet with
  | none => rw [(h.noHeight hb).1]; exact .none
  | some k =>
    rcases Nat.eq_zero_or_pos k with rfl | hk
    · rw [h.ground hb]; exact .whole (by decide) (by decide)
    · obtain ⟨x, f, hx, -, ⟨h1, h2⟩, -⟩ := h.height k hb
      rw [hx]
      intro y hy
      cases hy
      have hk1 : (1 : Rat) ≤ k := natCast_le hk
      have hk2 : (k : Rat) ≤ 999 := by
        unfold Layer.WF at hl
        cases hbase : l.base with
        | absent => rw [hbase] at hb; cases hb
        | undef => rw [hbase] at hb; cases hb
        | hundreds ds =>
          rw [hbase] at hb hl
          cases hb
          exact digits_le (k := 3) (by rw [hl.1]; omega) (by decide)
      simp only
      grind

theorem signed_between {neg : Bool} {n : Nat} (h : n ≤ 99) : Between (-99) 99 (some (signed neg n)) := by
  intro x hx
  cases hx
  have h1 : (n : Rat) ≤ 99 := natCast_le h
  have h0 := cast_nonneg n
  unfold signed
  cases neg <;> simp only [Bool.false_eq_true, if_false, if_true] <;> grind

theorem two_digits {ds : PyStr} (h : ds.length = 2) : digitsVal ds ≤ 99 := by
  have := digitsVal_lt ds
  rw [h] at this
  omega

theorem temp_between {t : TempPart} (h : t.number.WF) : Between (-99) 99 t.degrees := by
  unfold TempPart.degrees
  cases hn : t.number with
  | digits ds => rw [hn] at h; exact signed_between (two_digits h.1)
  | slashes => exact .none
  | letterX => exact .none
  | letterM => exact .none

theorem press_between {g : PressGroup} {x : MetarPressure} (hg : g.WF) (h : PressSays g x) :
    Between 0 338605 x.value := by
  cases hn : g.number with
  | none => rw [h.missing hn]; exact .none
  | some ds =>
    have hd : digitsVal ds ≤ 9999 := by
      have := digitsVal_lt ds
      rw [(hg ds hn).1] at this
      omega
    rcases Nat.eq_zero_or_pos (digitsVal ds) with h0 | h0
    · rw [h.zero ds hn h0]; exact .whole (by decide) (by decide)
    · have h1 : (1 : Rat) ≤ digitsVal ds := natCast_le h0
      have h2 : (digitsVal ds : Rat) ≤ 9999 := natCast_le hd
      by_cases hi : g.Inches
      · obtain ⟨v, hv, a, b⟩ := h.inches ds hn hi
        rw [hv]
        intro y hy
        cases hy
        simp only
        grind
      · unfold PressGroup.Inches at hi
        have hins : g.ins = false := by
          cases e : g.ins
          · rfl
          · exact absurd (.inr e) hi
        cases hl : g.letters with
        | none =>
          have hb : g.Bare := ⟨hl, hins⟩
          by_cases hlow : digitsVal ds ≤ 2500
          · rw [h.bareLow ds hn hb hlow]
            exact .whole (cast_nonneg _) (by grind)
          · obtain ⟨v, hv, a, b⟩ := h.bareHigh ds hn hb (by omega)
            rw [hv]
            intro y hy
            cases hy
            simp only
            grind
        | some l =>
          have hh : g.Hecto := by
            refine ⟨?_, hins⟩
            cases l with
            | A => exact absurd (.inl hl) hi
            | Q => exact .inl hl
            | QNH => exact .inr hl
          rw [h.hecto ds hn hh]
          exact .whole (cast_nonneg _) (by grind)

theorem rangeValue_between {v : RangeValue} {feet : Bool} {x : Option F64} (hv : v.WF)
    (h : v.SaysMetres feet x) : Between 0 10000 x := by
  have hd : (digitsVal v.digits : Rat) ≤ 9999 := digits_le (k := 4) (by have := hv.1; omega) (by decide)
  unfold RangeValue.SaysMetres at h
  split at h
  · obtain ⟨y, rfl, hr⟩ := h
    refine hr.between (b := 9999) (by decide +kernel) (by decide +kernel) ?_ (by decide +kernel)
    grind
  · rw [h]
    refine .whole (cast_nonneg _) ?_
    split
    · decide
    · grind

theorem range_between {g : RangeGroup} {x : RunwayRange} (hg : g.WF) (h : RangeSays g x) :
    Between 0 10000 x.low ∧ Between 0 10000 x.high := by
  refine ⟨rangeValue_between hg.2.1 h.low, ?_⟩
  cases hh : g.high with
  | none => rw [h.noHigh hh]; exact .none
  | some v => exact rangeValue_between (hg.2.2 v hh) (h.high v hh)

theorem sea_between {g : SeaGroup} {x : SeaState} (hg : g.WF) (h : seaGrammar.Says g x) :
    Between (-99) 99 x.temperature ∧ Between 0 100 x.height := by
  obtain ⟨-, h1, -, h2⟩ := h
  rw [h1, h2]
  refine ⟨signed_between (two_digits hg.1.1), ?_⟩
  cases hv : g.value with
  | state d => exact .none
  | height ds =>
    have hw := hg.2
    rw [hv] at hw
    have hd : (digitsVal ds : Rat) ≤ 999 := digits_le (k := 3) (by rw [hw.1]; omega) (by decide)
    have h0 := cast_nonneg (digitsVal ds)
    have e : (digitsVal ds : Rat) / 10 = digitsVal ds * (1 / 10) := by grind
    intro y hy
    cases hy
    simp only
    refine ⟨rnd_nonneg _ ?_, ?_⟩
    · rw [e]; grind
    · have := rnd_mono (p := (digitsVal ds : Rat) / 10) (q := ((100 : Nat) : Rat)) (by rw [e]; grind)
      rw [rnd_natCast 100 (by decide)] at this
      exact this

/-! ### From decoded groups to attributes -/

variable {γ α : Type}

theorem Spec.ReadAt.holds {c : List (PyStr × Nat)} {i : Nat} {G : Grammar γ α} {d x : α} (h : ReadAt c i G d x)
    {P : α → Prop} (hd : P d) (hP : ∀ w, G.WF w → ∀ y, G.Says w y → P y) : P x := by
  by_cases he : ∃ g, (g, i) ∈ c
  · obtain ⟨g, hg⟩ := he
    obtain ⟨w, hw, rfl⟩ := h.form g hg
    exact hP w hw x (h.value w hw hg)
  · rw [h.absent fun g hg => he ⟨g, hg⟩]
    exact hd

theorem Spec.SaysText.holds {G : Grammar γ α} {g : PyStr} {x : α} (h : SaysText G g x)
    {P : α → Prop} (hP : ∀ w, G.WF w → ∀ y, G.Says w y → P y) : P x := by
  obtain ⟨⟨w, hw, e⟩, hs⟩ := h
  exact hP w hw x (hs w hw e)

theorem Spec.ReadAll.holds {c : List (PyStr × Nat)} {lo hi : Nat} {G : Grammar γ α} {xs : List α}
    (h : ReadAll c lo hi G xs) {P : α → Prop} (hP : ∀ w, G.WF w → ∀ y, G.Says w y → P y) : ∀ x ∈ xs, P x := by
  unfold ReadAll at h
  generalize taken c lo hi = gs at h
  induction h with
  | nil => intro x hx; cases hx
  | cons h _ ih =>
    intro x hx
    rcases List.mem_cons.1 hx with rfl | hx
    · exact h.holds hP
    · exact ih x hx

theorem Spec.ReadLast.holds {c : List (PyStr × Nat)} {lo hi : Nat} {G : Grammar γ α} {d x : α}
    (h : ReadLast c lo hi G d x) {P : α → Prop} (hd : P d) (hP : ∀ w, G.WF w → ∀ y, G.Says w y → P y) : P x := by
  cases hl : (taken c lo hi).getLast? with
  | none => rw [h.2 (List.getLast?_eq_none_iff.1 hl)]; exact hd
  | some g => exact (h.1 g hl).holds hP

end Verif
