import Verif.Lemmas.Compare
import Verif.Props.Quantities

/-
Comparing reports by any unit (C103).
-/

namespace Verif.Props
open Verif Verif.Spec

/-! ### C103 -/

theorem cast_le {n k : Nat} (h : n ≤ k) : (n : Rat) ≤ (k : Rat) := by exact_mod_cast h

theorem twoOrThree_le {ds : PyStr} (h : TwoOrThreeDigits ds) : digitsVal ds ≤ 999 := by
  have := digitsVal_lt ds
  rcases h.1 with e | e <;> rw [e] at this <;> omega

theorem speed_grid {mps : Bool} {n : Nat} (hn : n ≤ 999) {q : Rat}
    (h : statedMps mps (some n) = some q) : Grid 900 999 q := by
  unfold statedMps at h
  simp only [Option.map_some, Option.some.injEq] at h
  subst h
  have := cast_le hn
  have h0 : (0 : Rat) ≤ n := Rat.natCast_nonneg
  cases mps
  · refine ⟨⟨n * 463, ?_⟩, ?_⟩
    · simp only [Bool.false_eq_true, if_false, Rat.natCast_mul]
      grind
    · simp only [Bool.false_eq_true, if_false]
      grind
  · refine ⟨⟨n * 900, ?_⟩, ?_⟩
    · simp only [if_true, Rat.natCast_mul]
    · simp only [if_true]
      grind

theorem speed_below {mps mps' : Bool} {n n' : Option Nat} {knot ms kph miph knot' ms' kph' miph' : Option F64}
    (hn : ∀ k, n = some k → k ≤ 999) (hn' : ∀ k, n' = some k → k ≤ 999)
    (h : SpeedUnits mps n knot ms kph miph) (h' : SpeedUnits mps' n' knot' ms' kph' miph')
    (hq : StatedBelow (statedMps mps n) (statedMps mps' n')) :
    Smaller knot knot' ∧ ∀ c : F64, 0 < c.val → Smaller (converted knot c) (converted knot' c) := by
  obtain ⟨q, q', e, e', hlt⟩ := hq
  have g : Grid 900 999 q := by
    cases n with
    | none => cases e
    | some n => exact speed_grid (hn n rfl) e
  have g' : Grid 900 999 q' := by
    cases n' with
    | none => cases e'
    | some n => exact speed_grid (hn' n rfl) e'
  have k := h.inKnot
  have k' := h'.inKnot
  rw [e] at k
  rw [e'] at k'
  have hg1 := g.gap (e := 1 / 10 ^ 8) g' hlt (by decide) (by decide +kernel) (by decide +kernel)
  have hg2 := g.gap (e := 2 * (1 / 10 ^ 8)) g' hlt (by decide) (by decide +kernel) (by decide +kernel)
  refine ⟨below_scaled (r := 3600 / 1852) k k' (fun q => by grind) (by decide +kernel) hg1, fun c hc => ?_⟩
  refine below_converted (e := 1 / 10 ^ 8) c k k' hc (by decide +kernel) ?_
  have := Rat.mul_lt_mul_of_pos_left hg2 (show (0 : Rat) < 3600 / 1852 by decide +kernel)
  grind

/-- C103, wind speeds and gusts in whatever units they are written. -/
theorem C103_wind (w w' : WindGroup) (hw : w.WF) (hw' : w'.WF) (x x' : MetarWind) (h : WindUnits w x)
    (h' : WindUnits w' x') :
    ComparesIn windSpeeds (statedMps w.mps w.speed.number) (statedMps w'.mps w'.speed.number) x x' ∧
    ComparesIn windGusts (statedMps w.mps w.gustNumber) (statedMps w'.mps w'.gustNumber) x x' := by
  have hs : ∀ w : WindGroup, w.WF → ∀ k, w.speed.number = some k → k ≤ 999 := by
    intro w hw k hk
    obtain ⟨-, h2, -⟩ := hw
    cases e : w.speed with
    | digits ds =>
      rw [e] at hk h2
      simp only [WindSpeed.number, Option.some.injEq] at hk
      subst hk
      exact twoOrThree_le h2
    | undef2 => rw [e] at hk; cases hk
    | undef3 => rw [e] at hk; cases hk
  have hg : ∀ w : WindGroup, w.WF → ∀ k, w.gustNumber = some k → k ≤ 999 := by
    intro w hw k hk
    obtain ⟨-, -, h3⟩ := hw
    unfold WindGroup.gustNumber at hk
    cases e : w.gust with
    | none => rw [e] at hk; cases hk
    | some p =>
      rw [e] at hk
      simp only [Option.map_some, Option.some.injEq] at hk
      subst hk
      exact twoOrThree_le (h3 p.1 p.2 e)
  constructor
  · intro hq u hu
    obtain ⟨b0, b⟩ := speed_below (hs w hw) (hs w' hw') h.2.1 h'.2.1 hq
    simp only [windSpeeds, List.mem_cons, List.not_mem_nil, or_false] at hu
    rcases hu with rfl | rfl | rfl | rfl
    · exact b0
    · exact b Conv.KNOT_TO_MPS (by decide +kernel)
    · exact b Conv.KNOT_TO_KPH (by decide +kernel)
    · exact b Conv.KNOT_TO_MIPH (by decide +kernel)
  · intro hq u hu
    obtain ⟨b0, b⟩ := speed_below (hg w hw) (hg w' hw') h.2.2.1 h'.2.2.1 hq
    simp only [windGusts, List.mem_cons, List.not_mem_nil, or_false] at hu
    rcases hu with rfl | rfl | rfl | rfl
    · exact b0
    · exact b Conv.KNOT_TO_MPS (by decide +kernel)
    · exact b Conv.KNOT_TO_KPH (by decide +kernel)
    · exact b Conv.KNOT_TO_MIPH (by decide +kernel)

theorem fraction_grid (f : Option (Nat × Nat)) : ∃ N : Nat, fractionPart f * 2520 = N ∧ N ≤ 9 * 2520 := by
  match f with
  | none => exact ⟨0, by simp [fractionPart], by omega⟩
  | some (a, b) =>
    have ha := digitVal_lt a
    have hb := digitVal_lt b
    simp only [fractionPart]
    generalize digitVal a = n at ha
    generalize digitVal b = d at hb
    have : d = 0 ∨ d = 1 ∨ d = 2 ∨ d = 3 ∨ d = 4 ∨ d = 5 ∨ d = 6 ∨ d = 7 ∨ d = 8 ∨ d = 9 := by omega
    rcases this with rfl | rfl | rfl | rfl | rfl | rfl | rfl | rfl | rfl | rfl
    · refine ⟨0, ?_, by omega⟩
      rw [show ((0 : Nat) : Rat) = 0 from rfl, Rat.div_def, Rat.inv_zero]
      grind
    · exact ⟨n * 2520, by simp only [Rat.natCast_mul]; grind, by omega⟩
    · exact ⟨n * 1260, by simp only [Rat.natCast_mul]; grind, by omega⟩
    · exact ⟨n * 840, by simp only [Rat.natCast_mul]; grind, by omega⟩
    · exact ⟨n * 630, by simp only [Rat.natCast_mul]; grind, by omega⟩
    · exact ⟨n * 504, by simp only [Rat.natCast_mul]; grind, by omega⟩
    · exact ⟨n * 420, by simp only [Rat.natCast_mul]; grind, by omega⟩
    · exact ⟨n * 360, by simp only [Rat.natCast_mul]; grind, by omega⟩
    · exact ⟨n * 315, by simp only [Rat.natCast_mul]; grind, by omega⟩
    · exact ⟨n * 280, by simp only [Rat.natCast_mul]; grind, by omega⟩

theorem vis_grid {w : VisGroup} (hw : w.WF) {q : Rat} (h : w.metresStated = some q) : Grid 2520 300000 q := by
  have nat : ∀ n : Nat, n ≤ 300000 → Grid 2520 300000 (n : Rat) := by
    intro n hn
    refine ⟨⟨n * 2520, by simp only [Rat.natCast_mul]⟩, ?_⟩
    have := cast_le hn
    grind
  match w, hw, h with
  | .metres v d, hw, h =>
    cases v with
    | undef => cases h
    | digits ds =>
      simp only [VisGroup.metresStated, Metres.number, Option.map_some, Option.some.injEq] at h
      subst h
      have := digitsVal_lt ds
      rw [hw.1.1] at this
      exact nat _ (by split <;> omega)
  | .cavok, _, h =>
    simp only [VisGroup.metresStated, Option.some.injEq] at h
    subst h
    exact nat 10000 (by omega)
  | .range r, hw, h =>
    have hi : ∀ ds, r.integer = some ds → digitsVal ds ≤ 99 := by
      intro ds e
      have := digitsVal_lt ds
      rcases (hw.1 ds e).1 with l | l <;> rw [l] at this <;> omega
    unfold VisGroup.metresStated at h
    cases hu : r.unit with
    | sm =>
      simp only [hu] at h
      split at h
      · cases h
      · simp only [Option.some.injEq] at h
        subst h
        obtain ⟨N, h1, h2⟩ := fraction_grid r.fraction
        obtain ⟨M, h3, h4⟩ : ∃ M : Nat, wholePart r.integer = M ∧ M ≤ 99 := by
          cases e : r.integer with
          | none => exact ⟨0, rfl, by omega⟩
          | some ds => exact ⟨digitsVal ds, rfl, hi ds e⟩
        unfold Range.amount
        rw [h3]
        have k2 := cast_le h2
        have k4 := cast_le h4
        generalize fractionPart r.fraction = f at *
        refine ⟨⟨1852 * (2520 * M + N), ?_⟩, ?_⟩
        · simp only [Rat.natCast_mul, Rat.natCast_add]
          grind
        · grind
    | km =>
      simp only [hu] at h
      cases e : r.integer with
      | none => rw [e] at h; cases h
      | some ds =>
        rw [e] at h
        simp only [Option.map_some, Option.some.injEq] at h
        subst h
        have := hi ds e
        exact nat _ (by omega)
    | m => simp only [hu] at h; cases h
    | u => simp only [hu] at h; cases h

theorem lengths_below {α : Type} {m km smi ft : α → Option F64} {e B : Rat} {D : Nat} {o o' : Option Rat} {x x' : α}
    (hD : 0 < D ∧ 0 ≤ e ∧ 2 * e * B * D < 1)
    (h : LengthUnits e o (m x) (km x) (smi x) (ft x)) (h' : LengthUnits e o' (m x') (km x') (smi x') (ft x'))
    (g : ∀ q, o = some q → Grid D B q) (g' : ∀ q, o' = some q → Grid D B q) :
    ComparesIn [m, km, smi, ft] o o' x x' := by
  rintro ⟨q, q', rfl, rfl, hlt⟩ u hu
  obtain ⟨b1, b2, b3, b4⟩ := length_below h h' ((g q rfl).gap (g' q' rfl) hlt hD.1 hD.2.1 hD.2.2)
  simp only [List.mem_cons, List.not_mem_nil, or_false] at hu
  rcases hu with rfl | rfl | rfl | rfl <;> assumption

/-- C103, visibilities in metres, kilometres and miles with fractions. -/
theorem C103_visibility (w w' : VisGroup) (hw : w.WF) (hw' : w'.WF) (x x' : Visibility) (h : VisUnits w x)
    (h' : VisUnits w' x') : ComparesIn visibilities w.metresStated w'.metresStated x x' :=
  lengths_below (D := 2520) (B := 300000) (by decide +kernel) h.1 h'.1 (fun _ => vis_grid hw)
    fun _ => vis_grid hw'

/-- C103, heights of clouds. -/
theorem C103_cloud (l l' : Layer) (hl : l.WF) (hl' : l'.WF) (x x' : Cloud) (h : CloudUnits l x)
    (h' : CloudUnits l' x') : ComparesIn cloudHeights l.metres l'.metres x x' := by
  have grid : ∀ l : Layer, l.WF → ∀ q, l.metres = some q → Grid 25 40000 q := by
    intro l hl q hq
    unfold Layer.metres at hq
    cases e : l.base.hundredsOfFeet with
    | none => rw [e] at hq; cases hq
    | some k =>
      rw [e] at hq
      simp only [Option.map_some, Option.some.injEq] at hq
      subst hq
      have hk : k ≤ 999 := by
        unfold Layer.WF at hl
        cases hb : l.base with
        | hundreds ds =>
          rw [hb] at e hl
          simp only [Base.hundredsOfFeet, Option.some.injEq] at e
          subst e
          have := digitsVal_lt ds
          rw [hl.1] at this
          omega
        | _ => rw [hb] at e; cases e
      have := cast_le hk
      refine ⟨⟨k * 762, ?_⟩, ?_⟩
      · simp only [Rat.natCast_mul]
        grind
      · grind
  exact lengths_below (D := 25) (B := 40000) (by decide +kernel) h h' (grid l hl) (grid l' hl')

/-- C103, the ends of a runway visual range, in metres or feet. -/
theorem C103_range (g g' : RangeGroup) (hg : g.WF) (hg' : g'.WF) (x x' : RunwayRange) (h : RangeUnits g x)
    (h' : RangeUnits g' x') :
    ComparesIn lowRanges (some (g.low.metres g.feet)) (some (g'.low.metres g'.feet)) x x' ∧
    ComparesIn highRanges (g.high.map (·.metres g.feet)) (g'.high.map (·.metres g'.feet)) x x' := by
  have grid : ∀ (v : RangeValue) (b : Bool), v.WF → Grid 1250 10000 (v.metres b) := by
    intro v b hv
    have hd : digitsVal v.digits ≤ 9999 := by
      have := digitsVal_lt v.digits
      rcases hv.1 with e | e | e <;> rw [e] at this <;> omega
    have := cast_le hd
    unfold RangeValue.metres
    split
    · refine ⟨⟨digitsVal v.digits * 381, ?_⟩, ?_⟩
      · simp only [Rat.natCast_mul]
        grind
      · have h0 : (0 : Rat) ≤ digitsVal v.digits := Rat.natCast_nonneg
        grind
    · split
      · exact ⟨⟨12500000, by decide +kernel⟩, by decide +kernel⟩
      · refine ⟨⟨digitsVal v.digits * 1250, ?_⟩, ?_⟩
        · simp only [Rat.natCast_mul]
        · grind
  have high : ∀ g : RangeGroup, g.WF → ∀ q, g.high.map (·.metres g.feet) = some q → Grid 1250 10000 q := by
    intro g hg q hq
    cases e : g.high with
    | none => rw [e] at hq; cases hq
    | some v =>
      rw [e] at hq
      simp only [Option.map_some, Option.some.injEq] at hq
      subst hq
      exact grid v _ (hg.2.2 v e)
  exact ⟨lengths_below (D := 1250) (B := 10000) (by decide +kernel) h.1 h'.1
      (fun q e => by cases e; exact grid _ _ hg.2.1) (fun q e => by cases e; exact grid _ _ hg'.2.1),
    lengths_below (D := 1250) (B := 10000) (by decide +kernel) h.2 h'.2 (high g hg) (high g' hg')⟩

theorem near_below {e q q' d : Rat} {v v' : Option F64} (h : Near e (some q) v) (h' : Near e (some q') v')
    (hd : q + d ≤ q') (he : 2 * e < d) : Smaller v v' := by
  obtain ⟨x, rfl, h1, -⟩ := h
  obtain ⟨x', rfl, -, h2⟩ := h'
  exact ⟨x, x', rfl, rfl, by grind⟩

theorem celsius_gap {b b' : Bool} {n n' : Option Nat} {q q' : Rat} (h : statedCelsius b n = some q)
    (h' : statedCelsius b' n' = some q') (hlt : q < q') : q + 1 ≤ q' := by
  have int : ∀ (b : Bool) (n : Option Nat) q, statedCelsius b n = some q → ∃ i : Int, q = i := by
    intro b n q h
    unfold statedCelsius at h
    cases n with
    | none => cases h
    | some n =>
      simp only [Option.map_some, Option.some.injEq] at h
      subst h
      cases b
      · exact ⟨n, (Rat.intCast_natCast n).symm⟩
      · refine ⟨-n, ?_⟩
        rw [Rat.intCast_neg, Rat.intCast_natCast]
        rfl
  obtain ⟨i, rfl⟩ := int _ _ _ h
  obtain ⟨j, rfl⟩ := int _ _ _ h'
  have : i < j := by exact_mod_cast hlt
  have : i + 1 ≤ j := this
  exact_mod_cast this

theorem temps_below {α : Type} {c k f r : α → Option F64} {b b' : Bool} {n n' : Option Nat} {x x' : α}
    (h : TempUnits (statedCelsius b n) (c x) (k x) (f x) (r x))
    (h' : TempUnits (statedCelsius b' n') (c x') (k x') (f x') (r x')) :
    ComparesIn [c, k, f, r] (statedCelsius b n) (statedCelsius b' n') x x' := by
  rintro ⟨q, q', e, e', hlt⟩ u hu
  have hgap := celsius_gap e e' hlt
  rw [e] at h
  rw [e'] at h'
  simp only [List.mem_cons, List.not_mem_nil, or_false] at hu
  rcases hu with rfl | rfl | rfl | rfl
  · exact near_below h.c h'.c hgap (by decide +kernel)
  · exact near_below (d := 1) h.k h'.k (by grind) (by decide +kernel)
  · exact near_below (d := 1) h.f h'.f (by grind) (by decide +kernel)
  · exact near_below (d := 1) h.r h'.r (by grind) (by decide +kernel)

/-- C103, temperatures and dew points. -/
theorem C103_temperatures (g g' : TempGroup) (x x' : Temperatures) (h : TemperaturesUnits g x)
    (h' : TemperaturesUnits g' x') :
    ComparesIn airTemperatures g.air.celsius g'.air.celsius x x' ∧
    ComparesIn dewpoints g.dew.celsius g'.dew.celsius x x' :=
  ⟨temps_below h.1 h'.1, temps_below h.2 h'.2⟩

/-- C103, maximum and minimum temperatures of a TAF. -/
theorem C103_taf_temperatures (w w' : TafTempGroup) (x x' : TafTemperature) (h : TafTempUnits w x)
    (h' : TafTempUnits w' x') :
    ComparesIn tafTemperatures (statedCelsius w.minus (some (digitsVal w.digits)))
      (statedCelsius w'.minus (some (digitsVal w'.digits))) x x' :=
  temps_below h h'

/-- C103, temperature of the sea and height of the waves. -/
theorem C103_sea (g g' : SeaGroup) (hg : g.value.WF) (hg' : g'.value.WF) (x x' : SeaState) (h : SeaUnits g x)
    (h' : SeaUnits g' x') :
    ComparesIn seaTemperatures (statedCelsius g.minus (some (digitsVal g.temp)))
      (statedCelsius g'.minus (some (digitsVal g'.temp))) x x' ∧
    ComparesIn waveHeights g.value.statedMetres g'.value.statedMetres x x' := by
  refine ⟨temps_below h.temperature h'.temperature, ?_⟩
  rintro ⟨q, q', e, e', hlt⟩ u hu
  have grid : ∀ v : SeaValue, v.WF → ∀ q, v.statedMetres = some q → Grid 10 100 q := by
    intro v hv q hq
    cases v with
    | state d => cases hq
    | height ds =>
      simp only [SeaValue.statedMetres, Option.some.injEq] at hq
      subst hq
      have hd := digitsVal_lt ds
      rw [hv.1] at hd
      have := cast_le (show digitsVal ds ≤ 999 by omega)
      exact ⟨⟨digitsVal ds, by grind⟩, by grind⟩
  have gap1 := (grid _ hg q e).gap (e := 1 / 10 ^ 14) (grid _ hg' q' e') hlt (by decide) (by decide +kernel)
    (by decide +kernel)
  have gap2 := (grid _ hg q e).gap (e := 2 / 10 ^ 6) (grid _ hg' q' e') hlt (by decide) (by decide +kernel)
    (by decide +kernel)
  have k1 := h.m
  have k2 := h.dm
  have k3 := h.cm
  have k4 := h.ft
  have k5 := h.inches
  have k1' := h'.m
  have k2' := h'.dm
  have k3' := h'.cm
  have k4' := h'.ft
  have k5' := h'.inches
  rw [e] at k1 k2 k3 k4 k5
  rw [e'] at k1' k2' k3' k4' k5'
  simp only [waveHeights, List.mem_cons, List.not_mem_nil, or_false] at hu
  rcases hu with rfl | rfl | rfl | rfl | rfl
  · exact below_of k1 k1' gap1
  · exact below_scaled (r := 10) k2 k2' (fun q => by grind) (by decide +kernel) gap1
  · exact below_scaled (r := 100) k3 k3' (fun q => by grind) (by decide +kernel) gap1
  · exact below_scaled (r := 1 / 0.3048) k4 k4' (fun q => by grind) (by decide +kernel) gap1
  · exact below_scaled (r := 1 / 0.0254) k5 k5' (fun q => by grind) (by decide +kernel) gap2

theorem press_bound {g : PressGroup} (hg : g.WF) {q : Rat} (h : g.statedHPa = some q) : q ≤ 10000 := by
  unfold PressGroup.statedHPa at h
  cases e : g.number with
  | none => rw [e] at h; cases h
  | some ds =>
    rw [e] at h
    simp only [Option.map_some, Option.some.injEq] at h
    subst h
    have hd := digitsVal_lt ds
    rw [(hg ds e).1] at hd
    have := cast_le (show digitsVal ds ≤ 9999 by omega)
    have hi : inchOfMercury ≤ 34 ∧ 0 ≤ inchOfMercury := by decide +kernel
    generalize inchOfMercury = z at hi
    generalize (digitsVal ds : Rat) = d at this
    split
    · have := Rat.mul_le_mul_of_nonneg_right (show d / 100 ≤ 100 by grind) hi.2
      grind
    · grind

/-- C103, pressures that differ by a tenth of a hectopascal, in whatever unit they are written. -/
theorem C103_pressure (g g' : PressGroup) (hg : g.WF) (hg' : g'.WF) (x x' : MetarPressure)
    (h : PressUnits g x) (h' : PressUnits g' x') (hd : StatedBelowBy (1 / 10) g.statedHPa g'.statedHPa) :
    ∀ u ∈ pressures, Smaller (u x) (u x') := by
  obtain ⟨q, q', e, e', hlt⟩ := hd
  have b := press_bound hg e
  have b' := press_bound hg' e'
  intro u hu
  have k1 := h.hPa
  have k2 := h.inHg
  have k3 := h.mbar
  have k4 := h.bar
  have k5 := h.atm
  have k1' := h'.hPa
  have k2' := h'.inHg
  have k3' := h'.mbar
  have k4' := h'.bar
  have k5' := h'.atm
  rw [e] at k1 k2 k3 k4 k5
  rw [e'] at k1' k2' k3' k4' k5'
  simp only [pressures, List.mem_cons, List.not_mem_nil, or_false] at hu
  rcases hu with rfl | rfl | rfl | rfl | rfl
  · exact below_of k1 k1' (by grind)
  · refine below_scaled (r := 1 / inchOfMercury) k2 k2' (fun q => by rw [Rat.div_def, Rat.div_def]; grind)
      (by decide +kernel) (by grind)
  · exact below_of k3 k3' (by grind)
  · exact below_scaled (r := 1 / 1000) k4 k4' (fun q => by grind) (by decide +kernel) (by grind)
  · exact below_scaled (r := 1 / 1013.25) k5 k5' (fun q => by grind) (by decide +kernel) (by grind)

/-- C103, two METARs. Where both state a quantity and one states less, the attributes of the reports
compare in the same way in every unit: wind, gusts, visibilities, temperature, dew point, sea. -/
theorem C103_metar (db db' : Database) (clock clock' : Clock) (code code' : PyStr) (a a' : Args)
    (r r' : Metar) (c c' : List (PyStr × Nat))
    (h : Metar.new db clock code a = .ok r) (h' : Metar.new db' clock' code' a' = .ok r')
    (hc : Decodes (Metar.handlers db (clock 2) a) (metarGroups r.body) c)
    (hc' : Decodes (Metar.handlers db' (clock' 2) a') (metarGroups r'.body) c') :
    (∀ w w' : WindGroup, w.WF → w'.WF → (w.text, 4) ∈ c → (w'.text, 4) ∈ c' →
      ComparesIn windSpeeds (statedMps w.mps w.speed.number) (statedMps w'.mps w'.speed.number)
        r.core.wind r'.core.wind ∧
      ComparesIn windGusts (statedMps w.mps w.gustNumber) (statedMps w'.mps w'.gustNumber)
        r.core.wind r'.core.wind) ∧
    (∀ w w' : VisGroup, w.WF → w'.WF → (w.text, 6) ∈ c → (w'.text, 6) ∈ c' →
      ComparesIn visibilities w.metresStated w'.metresStated r.core.prevailing r'.core.prevailing) ∧
    (∀ g g' : TempGroup, g.WF → g'.WF → (g.text, 18) ∈ c → (g'.text, 18) ∈ c' →
      ComparesIn airTemperatures g.air.celsius g'.air.celsius r.temperatures r'.temperatures ∧
      ComparesIn dewpoints g.dew.celsius g'.dew.celsius r.temperatures r'.temperatures) ∧
    (∀ g g' : PressGroup, g.WF → g'.WF → g.Sensible → g'.Sensible →
      (taken c 19 20).getLast? = some g.text → (taken c' 19 20).getLast? = some g'.text →
      StatedBelowBy (1 / 10) g.statedHPa g'.statedHPa →
      ∀ u ∈ pressures, Smaller (u r.pressure) (u r'.pressure)) ∧
    (∀ g g' : SeaGroup, seaGrammar.WF g → seaGrammar.WF g' → (g.text, 25) ∈ c → (g'.text, 25) ∈ c' →
      ComparesIn seaTemperatures (statedCelsius g.minus (some (digitsVal g.temp)))
        (statedCelsius g'.minus (some (digitsVal g'.temp))) r.seaState r'.seaState ∧
      ComparesIn waveHeights g.value.statedMetres g'.value.statedMetres r.seaState r'.seaState) ∧
    (∀ (i j : Nat) (l l' : Layer) x x', l.WF → l'.WF → (taken c 14 17)[i]? = some l.text →
      (taken c' 14 17)[j]? = some l'.text → r.core.clouds.list[i]? = some x →
      r'.core.clouds.list[j]? = some x' → ComparesIn cloudHeights l.metres l'.metres x x') := by
  obtain ⟨q1, -, q3, -, -, q6, q7, q8, q9⟩ := C84_metar db clock code a r c h hc
  obtain ⟨p1, -, p3, -, -, p6, p7, p8, p9⟩ := C84_metar db' clock' code' a' r' c' h' hc'
  refine ⟨fun w w' hw hw' hm hm' => ?_, fun w w' hw hw' hm hm' => ?_, fun g g' hg hg' hm hm' => ?_,
    fun g g' hg hg' hs hs' hm hm' hd => ?_, fun g g' hg hg' hm hm' => ?_,
    fun i j l l' x x' hl hl' ht ht' hx hx' => ?_⟩
  · exact C103_wind w w' hw hw' _ _ (q1.value w hw hm).2 (p1.value w' hw' hm').2
  · exact C103_visibility w w' hw hw' _ _ (q3.value w hw hm).2 (p3.value w' hw' hm').2
  · exact C103_temperatures g g' _ _ (q7.value g hg hm).2 (p7.value g' hg' hm').2
  · exact C103_pressure g g' hg hg' _ _ (((q8.1 _ hm).2 g hg rfl).2 hs) (((p8.1 _ hm').2 g' hg' rfl).2 hs') hd
  · exact C103_sea g g' hg.2 hg'.2 _ _ (q9.value g hg hm).2 (p9.value g' hg' hm').2
  · have u := (each_at q6 ht hx).2 l hl rfl
    have u' := (each_at p6 ht' hx').2 l' hl' rfl
    exact C103_cloud l l' hl hl' _ _ u.2 u'.2

/-! ### Instances -/

/-- 20 knots are more than 10 metres per second (19.4 knots), in every unit; 1 1/2 miles (2778 m) are more
than 2700 metres; and so on. -/
example : (match Metar.new sampleDb sampleClock py!"METAR SKBO 151200Z 09010MPS 2700 BKN010 M02/M03 A2992 W15/H009" {},
      Metar.new sampleDb sampleClock py!"METAR SKBO 151200Z 09020KT 1 1/2SM OVC011 M01/01 Q1014 W16/H010" {} with
    | .ok r, .ok r' =>
      let lt (v v' : Option F64) : Bool := match v, v' with
        | some x, some x' => decide (x.val < x'.val)
        | _, _ => false
      (windSpeeds.all fun u => lt (u r.core.wind) (u r'.core.wind)) &&
      (visibilities.all fun u => lt (u r.core.prevailing) (u r'.core.prevailing)) &&
      (airTemperatures.all fun u => lt (u r.temperatures) (u r'.temperatures)) &&
      (dewpoints.all fun u => lt (u r.temperatures) (u r'.temperatures)) &&
      (pressures.all fun u => lt (u r.pressure) (u r'.pressure)) &&
      (seaTemperatures.all fun u => lt (u r.seaState) (u r'.seaState)) &&
      (waveHeights.all fun u => lt (u r.seaState) (u r'.seaState))
    | _, _ => false) = true := by decide +kernel
example : StatedBelow (statedMps true (some 10)) (statedMps false (some 20)) :=
  ⟨10, 20 * 1852 / 3600, rfl, rfl, by decide +kernel⟩
example : StatedBelow (VisGroup.metres (.digits py!"2700") none).metresStated
    (VisGroup.range ⟨.exact, some py!"1", true, some (49, 50), .sm⟩).metresStated :=
  ⟨2700, 2778, by decide +kernel, by decide +kernel, by decide +kernel⟩
example : StatedBelowBy (1 / 10) (PressGroup.mk (some .A) (some py!"2992") false).statedHPa
    (PressGroup.mk (some .Q) (some py!"1014") false).statedHPa :=
  ⟨2992 / 100 * inchOfMercury, 1014, by decide +kernel, by decide +kernel, by decide +kernel⟩

/-- C103. Pressures in different units that are closer than the constant of the library is exact need
not compare: 29.53 inches are 1000.0006 hPa, but the library makes 1000 hPa of them. -/
theorem C103_pressure_gap_needed : ¬ ∀ (clock : Clock) (code code' : PyStr) (r r' : Metar)
    (g g' : PressGroup), Metar.new sampleDb clock code {} = .ok r → Metar.new sampleDb clock code' {} = .ok r' →
    r.pressure.code = some g.text → r'.pressure.code = some g'.text →
    StatedBelow g.statedHPa g'.statedHPa → Smaller r.pressure.inHPa r'.pressure.inHPa := by
  intro h
  have e1 : (match Metar.new sampleDb sampleClock py!"METAR SKBO 151200Z Q1000" {},
        Metar.new sampleDb sampleClock py!"METAR SKBO 151200Z A2953" {} with
      | .ok r, .ok r' => decide (r.pressure.code = some py!"Q1000" ∧ r'.pressure.code = some py!"A2953" ∧
          r.pressure.inHPa.map (·.val) = r'.pressure.inHPa.map (·.val))
      | _, _ => false) = true := by decide +kernel
  split at e1
  · next r r' hr hr' =>
    obtain ⟨c1, c2, c3⟩ := of_decide_eq_true e1
    obtain ⟨x, x', hx, hx', hlt⟩ := h sampleClock _ _ r r' (PressGroup.mk (some .Q) (some py!"1000") false)
      (PressGroup.mk (some .A) (some py!"2953") false) hr hr' c1 c2
      ⟨1000, 2953 / 100 * inchOfMercury, by decide +kernel, by decide +kernel, by decide +kernel⟩
    rw [hx, hx'] at c3
    simp only [Option.map_some, Option.some.injEq] at c3
    rw [c3] at hlt
    exact absurd hlt (Rat.lt_irrefl)
  · cases e1

end Verif.Props
