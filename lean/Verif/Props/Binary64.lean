import Verif.Spec.Binary64
import Verif.Lemmas.Ordinary
import Verif.Props.Bounds

/-
C89: the arithmetic of the model is that of IEEE 754 binary64 on every number a report can show.
-/

namespace Verif.Props
open Verif Verif.Spec

/-- C89. The rounding of the model is the one of IEEE 754 in the range of the normal numbers: it gives
the nearest number of the format, ties to even, and nothing else does. -/
theorem C89_round (q y : Rat) (h : InRange q) : Rounded q y ↔ y = rnd q := rounded_iff h

/-- 1/10 is not in the format; a tie is broken towards the even neighbour. -/
example : InRange (1 / 10) ∧ rnd (1 / 10) = 3602879701896397 / 36028797018963968 ∧ rnd (1 / 10) ≠ 1 / 10 := by
  refine ⟨inRange_of (lo := 1 / 10) (hi := 1 / 10) (by decide +kernel) (by decide +kernel) (.inr (.inl ⟨by grind, by grind⟩)), ?_⟩
  decide +kernel

example : rnd 9007199254740993 = 9007199254740992 ∧ rnd 9007199254740995 = 9007199254740996 := by decide +kernel

/-- C89. The four operations on doubles of a moderate size give the IEEE 754 results, with the sign of a
zero result where there is one. -/
theorem C89_ops (a b : F64) (ha : Double a) (hb : Double b) (ma : Moderate a) (mb : Moderate b) :
    Result (a.val * b.val) (¬ (Negative a ↔ Negative b)) (a.mul b) ∧
    (b.val ≠ 0 → Result (a.val / b.val) (¬ (Negative a ↔ Negative b)) (a.div b)) ∧
    Result (a.val + b.val) (Negative a ∧ Negative b) (a.add b) ∧
    Result (a.val - b.val) (Negative a ∧ ¬ Negative b) (a.sub b) := by
  have xor : (a.sgn != b.sgn) = true ↔ ¬ (Negative a ↔ Negative b) := by
    rw [← sgn_negative, ← sgn_negative]
    cases a.sgn <;> cases b.sgn <;> decide
  obtain ⟨hs1, hs2⟩ := inRange_sum ha.1 ma hb.1 mb
  refine ⟨⟨?_, ?_⟩, fun _ => ⟨?_, ?_⟩, ⟨rnd_rounded hs1, ?_⟩, ⟨rnd_rounded hs2, ?_⟩⟩
  · exact rnd_rounded (inRange_product ((moderate_iff.1 ma).mul (by decide +kernel) mb))
  · rw [← xor]; exact mk'_negative _ _
  · have := (moderate_iff.1 ma).mul (by decide +kernel) ((moderate_iff.1 mb).inv (by decide +kernel) (by decide +kernel))
    rw [← Rat.div_def] at this
    exact rnd_rounded (inRange_product this)
  · rw [← xor]; exact mk'_negative _ _
  · have := mk'_negative (a.val + b.val) (a.sgn && b.sgn)
    rwa [Bool.and_eq_true, sgn_negative, sgn_negative] at this
  · have := mk'_negative (a.val - b.val) (a.sgn && !b.sgn)
    rwa [Bool.and_eq_true, sgn_negative, Bool.not_eq_true', sgn_eq_false] at this

/-- C89. The sign of a product and of a quotient is the exclusive or of the signs, zero or not. -/
theorem C89_signs (a b : F64) (ha : Double a) (hb : Double b) :
    (Negative (a.mul b) ↔ ¬ (Negative a ↔ Negative b)) ∧
    (b.val ≠ 0 → (Negative (a.div b) ↔ ¬ (Negative a ↔ Negative b))) := by
  refine ⟨sign_product ha hb (rat_mul_neg _ _) Rat.mul_eq_zero, fun _ => sign_product ha hb ?_ ?_⟩
  · obtain ⟨h1, h2, -⟩ := rat_inv_sign b.val
    rw [Rat.div_def, rat_mul_neg, h1, h2]
  · rw [Rat.div_def, Rat.mul_eq_zero, (rat_inv_sign b.val).2.2]

/-- Doubles for the two theorems above: minus 40 and the factor of the conversion to Fahrenheit, and a
zero with a minus sign. -/
example : Double ⟨-40, false⟩ ∧ Double (F64.lit 1.8) ∧ Double ⟨0, true⟩ ∧ Moderate ⟨-40, false⟩ ∧
    Moderate (F64.lit 1.8) ∧ Moderate ⟨0, true⟩ ∧ (F64.mul ⟨0, true⟩ ⟨-40, false⟩) = ⟨0, false⟩ ∧
    (F64.add ⟨0, true⟩ ⟨0, true⟩) = ⟨0, true⟩ ∧ (F64.sub ⟨0, true⟩ ⟨0, true⟩) = ⟨0, false⟩ := by
  unfold Double Moderate
  decide +kernel

theorem wind_kept {w : MetarWind} (h1 : NotTiny w.direction.value ∧ NotTiny w.speed ∧ NotTiny w.gust)
    (h2 : IsDouble w.direction.value ∧ IsDouble w.speed ∧ IsDouble w.gust) (h3 : Between 0 360 w.direction.value)
    (h4 : Between 0 1942 w.speed) (h5 : Between 0 1942 w.gust) :
    Kept w.direction.value ∧ Kept w.speed ∧ Kept w.gust :=
  ⟨⟨h2.1, h1.1, h3.wide (by decide) (by decide +kernel)⟩, ⟨h2.2.1, h1.2.1, h4.wide (by decide) (by decide +kernel)⟩,
    ⟨h2.2.2, h1.2.2, h5.wide (by decide) (by decide +kernel)⟩⟩

theorem core_kept {c : Core} (hb : CoreBounds c)
    (w1 : NotTiny c.wind.direction.value ∧ NotTiny c.wind.speed ∧ NotTiny c.wind.gust)
    (w2 : IsDouble c.wind.direction.value ∧ IsDouble c.wind.speed ∧ IsDouble c.wind.gust)
    (v1 : NotTiny c.prevailing.vis ∧ NotTiny c.prevailing.direction.value)
    (v2 : IsDouble c.prevailing.vis ∧ IsDouble c.prevailing.direction.value)
    (c1 : ∀ x ∈ c.clouds.list, NotTiny x.height) (c2 : ∀ x ∈ c.clouds.list, IsDouble x.height) : KeptCore c := by
  obtain ⟨k1, k2, k3⟩ := wind_kept w1 w2 hb.direction hb.speed hb.gust
  exact ⟨k1, k2, k3, ⟨v2.1, v1.1, hb.visibility.wide (by decide) (by decide +kernel)⟩,
    ⟨v2.2, v1.2, hb.towards.wide (by decide +kernel) (by decide +kernel)⟩,
    fun x hx => ⟨c2 x hx, c1 x hx, (hb.clouds x hx).wide (by decide) (by decide +kernel)⟩⟩

/-- C89. Every number of a METAR and of its trends, in every unit, is a number of the format that is zero
or of a magnitude from 0.00001 to 100 million: nothing overflows, nothing underflows. -/
theorem C89_metar (db : Database) (clock : Clock) (code : PyStr) (a : Args) (r : Metar)
    (h : Metar.new db clock code a = .ok r) (x : F64) (hx : some x ∈ metarNumbers r) : Ordinary x := by
  have hb := C75_metar db clock code a r h
  obtain ⟨c, hc⟩ : ∃ c, Decodes (Metar.handlers db (clock 2) a) (metarGroups r.body) c :=
    ⟨_, (decodes_iff _ _ _).2 rfl⟩
  obtain ⟨time, -, -, hR, -⟩ := Metar.new_decodes h hc
  have ht : ∀ g i, (g, i) ∈ c → ∀ c ∈ g, (fun _ : Nat => True) c := fun _ _ _ _ _ => trivial
  obtain ⟨v1, v2⟩ := (C21_reports db clock code a).1 r c h hc
  have core : KeptCore r.core := by
    refine core_kept hb.core ?_ ?_ ?_ ?_ ?_ ?_
    · exact ((C16_reports db clock code a).1 r c h hc).holds
        (P := fun x => NotTiny x.direction.value ∧ NotTiny x.speed ∧ NotTiny x.gust)
        ⟨.none, .none, .none⟩ fun w _ y hy => wind_notTiny hy
    · exact made_single (Q := fun w : MetarWind => IsDouble w.direction.value ∧ IsDouble w.speed ∧ IsDouble w.gust)
        hR.wind ht ⟨.none, .none, .none⟩ fun m y _ hy => wind_double hy
    · exact v1.holds (P := fun x => NotTiny x.vis ∧ NotTiny x.direction.value) ⟨.none, .none⟩
        fun w _ y hy => vis_notTiny hy
    · exact made_single (Q := fun v : Visibility => IsDouble v.vis ∧ IsDouble v.direction.value)
        hR.prevailing ht ⟨.none, .none⟩ fun m y _ hy => prevailing_double hy
    · exact ((C27_reports db clock code a).1 r c h hc).holds fun w _ y hy => cloud_notTiny hy
    · exact made_all hR.clouds.1 ht fun m y _ hy => cloud_double hy
  unfold metarNumbers at hx
  simp only [List.mem_append] at hx
  rcases hx with ((((((hx | hx) | hx) | hx) | hx) | hx) | hx) | hx
  · exact mem_coreNumbers hx core
  · have n := (C20_report db clock code a r h c hc).holds
      (P := fun x => NotTiny x.from_.value ∧ NotTiny x.to.value) ⟨.none, .none⟩ fun w _ y hy => variation_notTiny hy
    have d := made_single (Q := fun v : WindVariation => IsDouble v.from_.value ∧ IsDouble v.to.value)
        hR.windVariation ht ⟨.none, .none⟩ fun m y _ hy => variation_double hy
    exact mem_variationNumbers hx ⟨d.1, n.1, hb.variation.1.wide (by decide +kernel) (by decide +kernel)⟩
      ⟨d.2, n.2, hb.variation.2.wide (by decide +kernel) (by decide +kernel)⟩
  · have n := v2.holds (P := fun x => NotTiny x.vis ∧ NotTiny x.direction.value) ⟨.none, .none⟩
        fun w _ y hy => vis_notTiny hy
    have d := made_single (Q := fun v : Visibility => IsDouble v.vis ∧ IsDouble v.direction.value)
        hR.minimum ht ⟨.none, .none⟩ fun m y _ hy => minimum_double hy
    exact mem_visNumbers hx ⟨d.1, n.1, hb.minimum.wide (by decide +kernel) (by decide +kernel)⟩
      ⟨d.2, n.2, hb.minimumTowards.wide (by decide +kernel) (by decide +kernel)⟩
  · obtain ⟨y, hy, hx⟩ := List.mem_flatMap.1 hx
    have n := (C25_report db clock code a r c h hc).holds
      (P := fun x => NotTiny x.low ∧ NotTiny x.high) (fun w _ y hy => range_notTiny hy) y hy
    have d := made_all (Q := fun v : RunwayRange => IsDouble v.low ∧ IsDouble v.high)
        hR.ranges.1 ht (fun m y _ hy => range_double hy) y hy
    have b := hb.ranges y hy
    exact mem_rangeNumbers hx ⟨d.1, n.1, b.1.wide (by decide +kernel) (by decide +kernel)⟩
      ⟨d.2, n.2, b.2.wide (by decide +kernel) (by decide +kernel)⟩
  · have := (C33_report db clock code a r c h hc).holds
      (P := fun x => WholeDegrees x.temperature ∧ WholeDegrees x.dewpoint) ⟨.none, .none⟩ fun w hw y hy => by
        rw [hy.2.1, hy.2.2]
        exact ⟨.part hw.1, .part hw.2⟩
    exact mem_temperatureNumbers hx this.1 this.2
  · have n := (C34_report db clock code a r c h hc).holds (P := fun x => NotTiny x.value) .none
      fun w _ y hy => press_notTiny hy
    have d := made_last (Q := fun x : MetarPressure => IsDouble x.value) hR.pressure .none
      fun m y hy => metarPressure_double hy
    exact Kept.pressure ⟨d, n, hb.pressure.wide (by decide +kernel) (by decide +kernel)⟩ hx
  · have n := (C36_report db clock code a r c h hc).holds
      (P := fun x => WholeDegrees x.temperature ∧ NotTiny x.height) ⟨.none, .none⟩ fun w hw y hy => by
        refine ⟨?_, sea_notTiny hy⟩
        rw [hy.2.1]
        intro x hx
        cases hx
        exact ⟨_, _, two_digits hw.1.1, rfl⟩
    have d := made_single (Q := fun x : SeaState => IsDouble x.height) hR.sea ht .none
      fun m y _ hy => sea_double hy
    exact mem_seaNumbers hx n.1 ⟨d, n.2, hb.waves.wide (by decide +kernel) (by decide +kernel)⟩
  · obtain ⟨p, hp, hx⟩ := List.mem_flatMap.1 hx
    obtain ⟨text, ht', -⟩ := (C08_metar_unparsed db clock code a r h).2 p hp
    obtain ⟨c, hc⟩ : ∃ c, Decodes ChangePeriod.handlers (bodyGroups text) c := ⟨_, (decodes_iff _ _ _).2 rfl⟩
    obtain ⟨_, _, -, -, -, -, hR, -, -⟩ := Metar.trend_decodes h hp ht' hc
    have ht : ∀ g i, (g, i) ∈ c → ∀ c ∈ g, (fun _ : Nat => True) c := fun _ _ _ _ _ => trivial
    refine mem_coreNumbers hx (core_kept (hb.trends p hp) ?_ ?_ ?_ ?_ ?_ ?_)
    · exact ((C16_reports db clock code a).2.1 r p text c h hp ht' hc).holds
        (P := fun x => NotTiny x.direction.value ∧ NotTiny x.speed ∧ NotTiny x.gust)
        ⟨.none, .none, .none⟩ fun w _ y hy => wind_notTiny hy
    · exact made_single (Q := fun w : MetarWind => IsDouble w.direction.value ∧ IsDouble w.speed ∧ IsDouble w.gust)
        hR.wind ht ⟨.none, .none, .none⟩ fun m y _ hy => wind_double hy
    · exact ((C21_reports db clock code a).2.1 r p text c h hp ht' hc).holds
        (P := fun x => NotTiny x.vis ∧ NotTiny x.direction.value) ⟨.none, .none⟩ fun w _ y hy => vis_notTiny hy
    · exact made_single (Q := fun v : Visibility => IsDouble v.vis ∧ IsDouble v.direction.value)
        hR.prevailing ht ⟨.none, .none⟩ fun m y _ hy => prevailing_double hy
    · exact ((C27_reports db clock code a).2.1 r p text c h hp ht' hc).holds fun w _ y hy => cloud_notTiny hy
    · exact made_all hR.clouds.1 ht fun m y _ hy => cloud_double hy

/-- C89. The same of a TAF and of its changes. -/
theorem C89_taf (db : Database) (clock : Clock) (code : PyStr) (a : Args) (r : Taf)
    (h : Taf.new db clock code a = .ok r) (x : F64) (hx : some x ∈ tafNumbers r) : Ordinary x := by
  have hb := C75_taf db clock code a r h
  obtain ⟨c, hc⟩ : ∃ c, Decodes (Taf.handlers db (clock 1) a) (bodyGroups r.body) c :=
    ⟨_, (decodes_iff _ _ _).2 rfl⟩
  obtain ⟨time, _, -, -, -, hR, -⟩ := Taf.new_decodes h hc
  have ht : ∀ g i, (g, i) ∈ c → ∀ c ∈ g, (fun _ : Nat => True) c := fun _ _ _ _ _ => trivial
  have core : KeptCore r.core := by
    refine core_kept hb.core ?_ ?_ ?_ ?_ ?_ ?_
    · exact ((C16_reports db clock code a).2.2.1 r c h hc).holds
        (P := fun x => NotTiny x.direction.value ∧ NotTiny x.speed ∧ NotTiny x.gust)
        ⟨.none, .none, .none⟩ fun w _ y hy => wind_notTiny hy
    · exact made_single (Q := fun w : MetarWind => IsDouble w.direction.value ∧ IsDouble w.speed ∧ IsDouble w.gust)
        hR.wind ht ⟨.none, .none, .none⟩ fun m y _ hy => wind_double hy
    · obtain ⟨v1, -, v3⟩ := C21_taf db clock code a r h c hc
      by_cases he : ∃ g, (g, 8) ∈ c
      · obtain ⟨g, hg⟩ := he
        obtain ⟨w, rest, -, -, hs⟩ := v1 g hg
        exact vis_notTiny hs
      · rw [v3 fun g hg => he ⟨g, hg⟩]
        exact ⟨.none, .none⟩
    · exact made_single (Q := fun v : Visibility => IsDouble v.vis ∧ IsDouble v.direction.value)
        hR.prevailing ht ⟨.none, .none⟩ fun m y _ hy => prevailing_double hy
    · exact ((C27_reports db clock code a).2.2.1 r c h hc).holds fun w _ y hy => cloud_notTiny hy
    · exact made_all hR.clouds.1 ht fun m y _ hy => cloud_double hy
  obtain ⟨ts, hts, hmx, hmn⟩ := C47_report db clock code a r c h hc
  have temps : ∀ p ∈ ts, WholeDegrees p.2.value := by
    generalize taken c 16 19 = gs at hts
    clear hmx hmn
    induction hts with
    | nil => intro p hp; cases hp
    | cons h1 _ ih =>
      intro p hp
      rcases List.mem_cons.1 hp with rfl | hp
      · rw [h1.value]
        intro x hx
        cases hx
        exact ⟨_, _, two_digits h1.form.1, rfl⟩
      · exact ih p hp
  unfold tafNumbers at hx
  simp only [List.mem_append] at hx
  rcases hx with ((hx | hx) | hx) | hx
  · exact mem_coreNumbers hx core
  · obtain ⟨y, hy, hx⟩ := List.mem_flatMap.1 hx
    rw [hmx] at hy
    obtain ⟨p, hp, rfl⟩ := List.mem_map.1 hy
    exact (temps p (List.mem_filter.1 hp).1).ordinary hx
  · obtain ⟨y, hy, hx⟩ := List.mem_flatMap.1 hx
    rw [hmn] at hy
    obtain ⟨p, hp, rfl⟩ := List.mem_map.1 hy
    exact (temps p (List.mem_filter.1 hp).1).ordinary hx
  · obtain ⟨p, hp, hx⟩ := List.mem_flatMap.1 hx
    obtain ⟨c, hc⟩ : ∃ c, Decodes ChangeForecasted.handlers (changeGroups p.code) c := ⟨_, (decodes_iff _ _ _).2 rfl⟩
    obtain ⟨_, -, -, -, hR, -, -⟩ := Taf.change_decodes h hp hc
    have ht : ∀ g i, (g, i) ∈ c → ∀ c ∈ g, (fun _ : Nat => True) c := fun _ _ _ _ _ => trivial
    refine mem_coreNumbers hx (core_kept (hb.changes p hp) ?_ ?_ ?_ ?_ ?_ ?_)
    · exact ((C16_reports db clock code a).2.2.2 r p c h hp hc).holds
        (P := fun x => NotTiny x.direction.value ∧ NotTiny x.speed ∧ NotTiny x.gust)
        ⟨.none, .none, .none⟩ fun w _ y hy => wind_notTiny hy
    · exact made_single (Q := fun w : MetarWind => IsDouble w.direction.value ∧ IsDouble w.speed ∧ IsDouble w.gust)
        hR.wind ht ⟨.none, .none, .none⟩ fun m y _ hy => wind_double hy
    · exact ((C21_reports db clock code a).2.2 r p c h hp hc).holds
        (P := fun x => NotTiny x.vis ∧ NotTiny x.direction.value) ⟨.none, .none⟩ fun w _ y hy => vis_notTiny hy
    · exact made_single (Q := fun v : Visibility => IsDouble v.vis ∧ IsDouble v.direction.value)
        hR.prevailing ht ⟨.none, .none⟩ fun m y _ hy => prevailing_double hy
    · exact ((C27_reports db clock code a).2.2.2 r p c h hp hc).holds fun w _ y hy => cloud_notTiny hy
    · exact made_all hR.clouds.1 ht fun m y _ hy => cloud_double hy

/-- The smallest pressure and a low visibility: 0.33 hPa in bar and in atmospheres, 231.5 m in kilometres. -/
example : (match Metar.new sampleDb sampleClock
      py!"METAR SKBO 151200Z 36099KT 010V360 1/8SM R07/0001 OVC999 M00/99 A0001 WM99/H001 NOSIG" {} with
    | .ok r => decide (((metarNumbers r).filter Option.isSome).length = 47 ∧
        (∃ x ∈ metarNumbers r, ∃ y ∈ x, 0 < y.val ∧ y.val < 4 / 10000) ∧
        (∃ x ∈ metarNumbers r, ∃ y ∈ x, 99000 < y.val))
    | .error _ => false) = true := by decide +kernel

example : (match Taf.new sampleDb sampleClock
      py!"TAF SKBO 150500Z 1506/1612 00000KT 9999 OVC010 TX99/1512Z TNM99/1606Z BECMG 1512/1514 VRB99G99KT" {} with
    | .ok r => decide (((tafNumbers r).filter Option.isSome).length = 31)
    | .error _ => false) = true := by decide +kernel

end Verif.Props
