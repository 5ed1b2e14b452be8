import Verif.Spec.Quantities
import Verif.Props.Units
import Verif.Props.Direction
import Verif.Lemmas.Paths
import Verif.Lemmas.Digits

/-
Quantities in other units: a conversion after a value of known accuracy.
-/

namespace Verif
open Spec Props

theorem gives_none {e : Rat} {v : Option F64} (h : v = none) : Gives e none v := h

theorem gives_some {e q : Rat} {y : F64} (h : Rel e y.val q) : Gives e (some q) (some y) := ⟨y, rfl, h⟩

theorem gives_mono {e f : Rat} {q : Option Rat} {v : Option F64} (h : Gives e q v) (hf : e ≤ f) :
    Gives f q v := by
  cases q with
  | none => exact h
  | some q =>
    obtain ⟨y, h1, h2⟩ := h
    exact ⟨y, h1, h2.mono hf⟩

/-- A conversion up to `tol` of a value known up to `e`. -/
theorem gives_conv {f : Option F64 → Option F64} {r tol e d : Rat} {q : Option Rat} {v : Option F64}
    (hf : Converts f r tol) (h : Gives e q v) (hr : 0 ≤ r ∧ 0 ≤ tol ∧ tol * (1 + e) + e ≤ d) :
    Gives d (q.map fun q => r * q) (f v) := by
  obtain ⟨r0, t0, hd⟩ := hr
  cases q with
  | none => cases (show v = none from h); exact hf.missing
  | some q =>
    obtain ⟨x, rfl, hq, h1, h2⟩ := h
    obtain ⟨y, e1, c1, c2⟩ := hf.close x
    rw [e1]
    refine ⟨y, rfl, Rat.mul_nonneg r0 hq, ?_⟩
    obtain ⟨a1, a2, a3⟩ := le_abs x.val
    have a4 : x.val.abs ≤ (1 + e) * q := by
      by_cases hx : 0 ≤ x.val
      · rw [Rat.abs_of_nonneg hx]; grind
      · rw [Rat.abs_of_nonpos (by grind)]
        grind
    generalize x.val.abs = z at *
    generalize x.val = x at *
    generalize y.val = y at *
    have g1 := Rat.mul_le_mul_of_nonneg_left h1 r0
    have g2 := Rat.mul_le_mul_of_nonneg_left h2 r0
    have g3 := Rat.mul_le_mul_of_nonneg_left (Rat.mul_le_mul_of_nonneg_left a4 r0) t0
    have g4 := Rat.mul_le_mul_of_nonneg_right hd (Rat.mul_nonneg r0 hq)
    constructor <;> grind

/-- The same quantity written differently. -/
theorem gives_congr {e : Rat} {q q' : Option Rat} {v : Option F64} (h : Gives e q v) (hq : q = q') :
    Gives e q' v := hq ▸ h

theorem whole_rel (n : Nat) : Rel 0 (whole n).val n := Rel.refl Rat.natCast_nonneg

theorem gives_whole (n : Option Nat) : Gives 0 (n.map fun n : Nat => (n : Rat)) (n.map whole) := by
  cases n with
  | none => exact gives_none rfl
  | some n => exact gives_some (whole_rel n)

/-- The conversions with the ratios and the accuracies of C49. -/
theorem unit_km : Converts inKilometers (1 / 1000) (1 / 1000000000000000) :=
  C49_exact_units _ (List.mem_iff_getElem?.2 ⟨0, rfl⟩)
theorem unit_smi : Converts inSeaMiles (1 / 1852) (1 / 1000000000000000) :=
  C49_exact_units _ (List.mem_iff_getElem?.2 ⟨1, rfl⟩)
theorem unit_ft : Converts inFeet (1 / 0.3048) (1 / 1000000000000000) :=
  C49_exact_units _ (List.mem_iff_getElem?.2 ⟨2, rfl⟩)
theorem unit_dm : Converts (fun v => SeaState.inDecimeters ⟨none, none, none, v⟩) 10
    (1 / 1000000000000000) := C49_exact_units _ (List.mem_iff_getElem?.2 ⟨3, rfl⟩)
theorem unit_cm : Converts (fun v => SeaState.inCentimeters ⟨none, none, none, v⟩) 100
    (1 / 1000000000000000) := C49_exact_units _ (List.mem_iff_getElem?.2 ⟨4, rfl⟩)
theorem unit_mbar : Converts inMbar 1 (1 / 1000000000000000) :=
  C49_exact_units _ (List.mem_iff_getElem?.2 ⟨5, rfl⟩)
theorem unit_bar : Converts inBar (1 / 1000) (1 / 1000000000000000) :=
  C49_exact_units _ (List.mem_iff_getElem?.2 ⟨6, rfl⟩)
theorem unit_atm : Converts inAtm (1 / 1013.25) (1 / 1000000000000000) :=
  C49_exact_units _ (List.mem_iff_getElem?.2 ⟨7, rfl⟩)
theorem unit_kph : Converts inKph 1.852 (1 / 1000000000000000) :=
  C49_exact_units _ (List.mem_iff_getElem?.2 ⟨8, rfl⟩)
theorem unit_rad : Converts (fun v => Direction.inRadians ⟨v, false⟩) (3.141592653589793238 / 180)
    (1 / 1000000000000000) := C49_approximate_units _ (List.mem_iff_getElem?.2 ⟨0, rfl⟩)
theorem unit_grad : Converts (fun v => Direction.inGradians ⟨v, false⟩) (10 / 9) (1 / 100000000) :=
  C49_approximate_units _ (List.mem_iff_getElem?.2 ⟨1, rfl⟩)
theorem unit_mps : Converts inMps (1852 / 3600) (1 / 100000000) :=
  C49_approximate_units _ (List.mem_iff_getElem?.2 ⟨2, rfl⟩)
theorem unit_miph : Converts inMiph (1852 / 1609.344) (1 / 1000000) :=
  C49_approximate_units _ (List.mem_iff_getElem?.2 ⟨3, rfl⟩)
theorem unit_inHg : Converts inInHg (1 / 33.863886666667) (1 / 1000000) :=
  C49_approximate_units _ (List.mem_iff_getElem?.2 ⟨4, rfl⟩)
theorem unit_in : Converts (fun v => SeaState.inInches ⟨none, none, none, v⟩) (1 / 0.0254)
    (1 / 1000000) := C49_approximate_units _ (List.mem_iff_getElem?.2 ⟨5, rfl⟩)

/-- With the very factors of the library. -/
theorem unit_mps' : Converts inMps (51444444 / 100000000) (1 / 1000000000000000) :=
  converts_of Conv.KNOT_TO_MPS _ (2 * ulp) _ (by decide +kernel)
theorem unit_inHg' : Converts inInHg (2953 / 100000) (1 / 1000000000000000) :=
  converts_of Conv.HPA_TO_INHG _ (2 * ulp) _ (by decide +kernel)

/-! ### Groups -/

theorem points_of (deg : Option Nat) (hd : ∀ n, deg = some n → n ≤ 360) (d : Direction) (h : d.value = deg.map whole) :
    Points deg d.cardinal := by
  obtain ⟨v, b⟩ := d
  simp only at h
  subst h
  cases deg with
  | none => rfl
  | some n =>
    have hn := hd n rfl
    exact Props.C18_cardinal (whole n) b (rnd_natCast n (by omega)) Rat.natCast_nonneg (Rat.natCast_le_natCast.2 hn)

theorem angle_units (deg : Option Nat) (hd : ∀ n, deg = some n → n ≤ 360) (d : Direction)
    (h : d.value = deg.map whole) : AngleUnits deg d.value d.inRadians d.inGradians d.cardinal := by
  have h0 := gives_whole deg
  rw [← h] at h0
  refine ⟨h, gives_congr (gives_conv unit_rad h0 (by decide +kernel)) ?_,
    gives_congr (gives_conv unit_grad h0 (by decide +kernel)) ?_, points_of deg hd d h⟩ <;>
  · rw [Option.map_map]
    congr 1
    funext d
    simp only [Function.comp_apply]
    grind

theorem length_units {e d : Rat} {q : Option Rat} {v : Option F64} (h : Gives e q v)
    (hd : 1 / 1000000000000000 * (1 + e) + e ≤ d ∧ e ≤ d) :
    LengthUnits d q v (inKilometers v) (inSeaMiles v) (inFeet v) := by
  have c : (0 : Rat) ≤ 1 / 1000000000000000 := by decide +kernel
  refine ⟨gives_mono h hd.2, gives_congr (gives_conv unit_km h ⟨by decide +kernel, c, hd.1⟩) ?_,
    gives_congr (gives_conv unit_smi h ⟨by decide +kernel, c, hd.1⟩) ?_,
    gives_congr (gives_conv unit_ft h ⟨by decide +kernel, c, hd.1⟩) ?_⟩ <;>
  · congr 1
    funext d
    grind

/-- The accuracy of speeds in knots. -/
theorem knots_gives {mps : Bool} {n : Option Nat} {v : Option F64} (h : Knots mps n v) :
    Gives (1 / 10 ^ 8) ((statedMps mps n).map fun v => v * 3600 / 1852) v := by
  cases n with
  | none => exact gives_none h
  | some n =>
    have hn : (0 : Rat) ≤ n := Rat.natCast_nonneg
    cases mps with
    | false =>
      cases (show v = some (whole n) from h)
      refine gives_mono (gives_congr (gives_some (whole_rel n)) ?_) (by decide +kernel)
      simp only [statedMps, Option.map_some, Bool.false_eq_true, if_false, Option.some.injEq]
      grind
    | true =>
      obtain ⟨x, rfl, hx⟩ := (show ∃ x : Rat, v = some ⟨x, false⟩ ∧
        Rel (1 / 10 ^ 14) x (n / (51444444 / 100000000)) from h)
      have h2 : Rel (9 / 10 ^ 9) ((n : Rat) / (51444444 / 100000000)) (n * 3600 / 1852) := by
        refine ⟨by grind, ?_, ?_⟩ <;> grind
      exact gives_mono (gives_some (y := ⟨x, false⟩) (Rel.trans (by decide +kernel) hx h2))
        (by decide +kernel)

theorem knots_same {n : Option Nat} {v : Option F64} (h : Knots true n v) :
    Gives (1 / 10 ^ 13) (n.map fun n : Nat => (n : Rat)) (inMps v) := by
  cases n with
  | none => cases (show v = none from h); exact gives_none rfl
  | some n =>
    obtain ⟨x, rfl, hx⟩ := (show ∃ x : Rat, v = some ⟨x, false⟩ ∧
      Rel (1 / 10 ^ 14) x (n / (51444444 / 100000000)) from h)
    refine gives_congr (gives_conv unit_mps' (gives_some (y := ⟨x, false⟩) hx) (by decide +kernel)) ?_
    simp only [Option.map_some, Option.some.injEq]
    grind

theorem speed_units {mps : Bool} {n : Option Nat} {v : Option F64} (h : Knots mps n v) :
    SpeedUnits mps n v (inMps v) (inKph v) (inMiph v) := by
  have h0 := knots_gives h
  refine ⟨h0, gives_congr (gives_conv unit_mps h0 (by decide +kernel)) ?_,
    gives_congr (gives_conv unit_kph h0 (by decide +kernel)) ?_,
    gives_congr (gives_conv unit_miph h0 (by decide +kernel)) ?_, fun e => ?_, fun e => ?_⟩
  · rw [Option.map_map]
    cases statedMps mps n with
    | none => rfl
    | some q => simp only [Option.map_some, Function.comp_apply, Option.some.injEq]; grind
  · rw [Option.map_map]
    congr 1
    funext d
    simp only [Function.comp_apply]
    grind
  · rw [Option.map_map]
    congr 1
    funext d
    simp only [Function.comp_apply]
    grind
  · subst e
    cases n with
    | none => exact h
    | some n => exact h
  · subst e
    exact knots_same h

theorem wind_units {w : WindGroup} {x : MetarWind} (hw : w.WF) (h : WindSays w x) : WindUnits w x := by
  obtain ⟨-, h1, h2, h3⟩ := h
  refine ⟨angle_units _ (fun n hn => ?_) x.direction (by rw [h1]), speed_units h2, speed_units h3, ?_⟩
  · have := hw.1
    cases e : w.dir <;> rw [e] at hn this <;> simp only [WindDir.degrees, WindDir.WF] at hn this
    · cases hn; omega
    · cases hn
    · cases hn
  · rw [MetarWind.variable_, h1]
    exact decide_eq_true_iff

theorem variation_units {w : VariationGroup} {x : WindVariation} (hw : w.WF)
    (h : variationGrammar.Says w x) : VariationUnits w x := by
  obtain ⟨-, h1, h2⟩ := h
  obtain ⟨-, w1, -, w2⟩ := hw
  exact ⟨angle_units (some (10 * w.from_)) (fun n hn => by cases hn; omega) x.from_ (by rw [h1]; rfl),
    angle_units (some (10 * w.to)) (fun n hn => by cases hn; omega) x.to (by rw [h2]; rfl)⟩

theorem vis_gives {w : VisGroup} {v : Option F64} (h : w.SaysMetres v) :
    Gives (1 / 10 ^ 15) w.metresStated v := by
  have c : (0 : Rat) ≤ 1 / 10 ^ 15 := by decide +kernel
  cases w with
  | metres m d =>
    rw [show v = m.number.map whole from h]
    exact gives_mono (gives_whole _) c
  | cavok =>
    rw [show v = some (whole 10000) from h]
    exact gives_mono (gives_some (whole_rel 10000)) c
  | range r =>
    obtain ⟨b, i, j, f, unit⟩ := r
    cases unit with
    | m => exact gives_none h
    | u => exact gives_none h
    | km =>
      rw [show v = i.map fun ds => whole (digitsVal ds * 1000) from h]
      cases i with
      | none => exact gives_none rfl
      | some ds => exact gives_mono (gives_some (whole_rel _)) c
    | sm =>
      unfold VisGroup.SaysMetres at h
      unfold VisGroup.metresStated
      dsimp only at h ⊢
      by_cases hn : i = none ∧ f = none
      · rw [if_pos hn] at h ⊢
        exact h
      · rw [if_neg hn] at h ⊢
        obtain ⟨x, rfl, hx⟩ := h
        exact gives_some (y := ⟨x, false⟩) hx

theorem vis_units {w : VisGroup} {x : Visibility} (h : VisSays w x) : VisUnits w x := by
  obtain ⟨h1, h2, -⟩ := h
  have key : ∀ d n, (visSuffixes.lookup d).getD none = some n →
      n ≤ 360 ∧ Direction.cardinal ⟨some (whole n), false⟩ = some d := by
    intro d n hd
    cases e : visSuffixes.lookup d with
    | none => rw [e] at hd; cases hd
    | some o =>
      rw [e] at hd
      cases (show o = some n from hd)
      have table : ∀ p ∈ visSuffixes, ∀ n, p.2 = some n →
          n ≤ 360 ∧ Direction.cardinal ⟨some (whole n), false⟩ = some p.1 := by
        intro p hp n hn
        have : visSuffixes.all (fun p => match p.2 with
            | some n => decide (n ≤ 360 ∧ Direction.cardinal ⟨some (whole n), false⟩ = some p.1)
            | none => true) = true := by decide +kernel
        have := List.all_eq_true.1 this p hp
        rw [hn] at this
        exact of_decide_eq_true this
      exact table (d, some n) (lookup_mem e) n rfl
  refine ⟨length_units (vis_gives h1) (by decide +kernel), angle_units _ (fun n hn => ?_) x.direction (by rw [h2]),
    fun m d hw hd => ?_⟩
  · unfold VisGroup.degrees at hn
    split at hn
    · exact (key _ n hn).1
    · cases hn
  · subst hw
    rw [Visibility.cardinalDirection, h2]
    cases e : (VisGroup.metres m (some d)).degrees with
    | none => exact absurd e hd
    | some n => exact (key d n e).2

theorem cloud_gives {l : Layer} {c : Cloud} (h : CloudSays l c) :
    Gives (1 / 10 ^ 10) l.metres c.height := by
  unfold Layer.metres
  cases hk : l.base.hundredsOfFeet with
  | none => exact gives_none (h.noHeight hk).1
  | some k =>
    rw [Option.map_some]
    by_cases h0 : k = 0
    · subst h0
      rw [h.ground hk]
      exact gives_some (by decide +kernel)
    · obtain ⟨x, f, e1, -, ⟨h1, h2⟩, -⟩ := h.height k hk
      rw [e1]
      have hk1 : (1 : Rat) ≤ k := by
        have := (Rat.natCast_le_natCast (a := 1) (b := k)).2 (by omega)
        exact this
      generalize (k : Rat) = q at *
      refine gives_some (y := ⟨x, false⟩) ⟨by grind, ?_, ?_⟩ <;> dsimp only <;> grind

theorem cloud_units {l : Layer} {c : Cloud} (h : CloudSays l c) : CloudUnits l c :=
  length_units (cloud_gives h) (by decide +kernel)

theorem range_gives {v : RangeValue} {feet : Bool} {x : Option F64} (h : v.SaysMetres feet x) :
    Gives (1 / 10 ^ 15) (some (v.metres feet)) x := by
  unfold RangeValue.SaysMetres at h
  unfold RangeValue.metres
  cases feet with
  | true =>
    obtain ⟨y, rfl, hy⟩ := h
    refine gives_congr (gives_some (y := ⟨y, false⟩) hy) ?_
    simp only [if_true, Option.some.injEq]
    grind
  | false =>
    rw [if_neg (by decide)] at h
    rw [if_neg (by decide), h]
    refine gives_mono (gives_congr (gives_some (whole_rel _)) ?_) (by decide +kernel)
    split <;> rfl

theorem range_units {g : RangeGroup} {x : RunwayRange} (h : RangeSays g x) : RangeUnits g x := by
  refine ⟨length_units (range_gives h.low) (by decide +kernel), ?_⟩
  refine length_units (e := 1 / 10 ^ 15) ?_ (by decide +kernel)
  cases hg : g.high with
  | none => exact gives_none (h.noHigh hg)
  | some v => exact range_gives (h.high v hg)

/-! ### Temperatures -/

theorem near_conv {f : Option F64 → Option F64} {a b t : Rat} {x : F64} (hf : ConvertsTemp f a b)
    (ha : 0 ≤ a ∧ a ≤ 9 / 5 ∧ 0 ≤ b ∧ b ≤ 500) (hx : x.val = t) (ht : -100 ≤ t ∧ t ≤ 100) :
    Near (1 / 10 ^ 12) (some (a * t + b)) (f (some x)) := by
  obtain ⟨y, e1, c⟩ := hf.close x
  rw [e1]
  refine ⟨y, rfl, ?_⟩
  rw [hx] at c
  refine c.mono ?_
  have h1 : t.abs ≤ 100 := by
    by_cases h : 0 ≤ t
    · rw [Rat.abs_of_nonneg h]; grind
    · rw [Rat.abs_of_nonpos (by grind)]; grind
  have h0 := (le_abs t).2.2
  generalize t.abs = z at *
  have g1 := Rat.mul_le_mul_of_nonneg_left h1 ha.1
  grind

theorem temp_units {minus : Bool} {n : Option Nat} {v : Option F64} (h : v = n.map (signed minus))
    (hn : ∀ k, n = some k → k < 100) :
    TempUnits (statedCelsius minus n) v (inKelvin v) (inFahrenheit v) (inRankine v) := by
  subst h
  obtain ⟨hk, hf, hr⟩ := C49_temperatures
  cases n with
  | none => exact ⟨rfl, rfl, rfl, rfl⟩
  | some n =>
    have h1 : (n : Rat) ≤ 100 := (Rat.natCast_le_natCast (a := n) (b := 100)).2 (by have := hn n rfl; omega)
    have h0 : (0 : Rat) ≤ n := Rat.natCast_nonneg
    have hs : (signed minus n).val = if minus = true then -(n : Rat) else n := rfl
    have ht : -100 ≤ (signed minus n).val ∧ (signed minus n).val ≤ 100 := by
      rw [hs]; split <;> constructor <;> grind
    unfold statedCelsius
    simp only [Option.map_some]
    rw [← hs]
    generalize signed minus n = x at *
    refine ⟨⟨x, rfl, Within.refl _⟩, ?_, ?_, ?_⟩
    · have := near_conv hk (by decide +kernel) rfl ht
      rwa [show 1 * x.val + 273.15 = x.val + 273.15 by grind] at this
    · have := near_conv hf (by decide +kernel) rfl ht
      rwa [show 9 / 5 * x.val + 32 = x.val * 9 / 5 + 32 by grind] at this
    · have := near_conv hr (by decide +kernel) rfl ht
      rwa [show 9 / 5 * x.val + 491.67 = (x.val + 273.15) * 9 / 5 by grind] at this

theorem lt_hundred_of_length {ds : PyStr} (h : ds.length = 2) : digitsVal ds < 100 := by
  have := digitsVal_lt ds
  rw [h] at this
  exact this

theorem temperatures_units {g : TempGroup} {x : Temperatures} (hw : g.WF) (h : tempGrammar.Says g x) :
    TemperaturesUnits g x := by
  obtain ⟨-, h1, h2⟩ := h
  have hn : ∀ t : TempNumber, t.WF → ∀ k, t.value = some k → k < 100 := by
    intro t ht k hk
    cases t with
    | digits ds => cases hk; exact lt_hundred_of_length ht.1
    | slashes => cases hk
    | letterX => cases hk
    | letterM => cases hk
  exact ⟨temp_units h1 (hn _ hw.1), temp_units h2 (hn _ hw.2)⟩

theorem tafTemp_units {w : TafTempGroup} {x : TafTemperature} (hw : w.WF)
    (h : x.value = some (signed w.minus (digitsVal w.digits))) : TafTempUnits w x :=
  temp_units (n := some _) h fun k hk => by cases hk; exact lt_hundred_of_length hw.1

theorem sea_units {g : SeaGroup} {x : SeaState} (hw : g.WF) (h : seaGrammar.Says g x) :
    SeaUnits g x := by
  obtain ⟨-, h1, -, h2⟩ := h
  have h0 : Gives ulp g.value.statedMetres x.height := by
    rw [h2]
    cases g.value with
    | state d => exact gives_none rfl
    | height ds =>
      have hn : (0 : Rat) ≤ digitsVal ds := Rat.natCast_nonneg
      exact gives_some (y := ⟨_, false⟩) (rnd_relW _ (by grind))
  refine ⟨temp_units (n := some _) h1 fun k hk => by cases hk; exact lt_hundred_of_length hw.1.1,
    gives_mono h0 (by decide +kernel),
    gives_congr (gives_conv unit_dm h0 (by decide +kernel)) ?_,
    gives_congr (gives_conv unit_cm h0 (by decide +kernel)) ?_,
    gives_congr (gives_conv unit_ft h0 (by decide +kernel)) ?_,
    gives_congr (gives_conv unit_in h0 (by decide +kernel)) ?_⟩ <;>
  · congr 1
    funext d
    grind

/-! ### Pressure -/

theorem inches_gives {n : Rat} {v : Rat} (hn : n = 0 ∧ v = 0 ∨ 1 ≤ n)
    (h : Within (1 / 10 ^ 9) v (n / 100 / (2953 / 100000))) :
    Rel (1 / 10 ^ 8) v (n / 100 / (2953 / 100000)) := by
  rcases hn with ⟨rfl, rfl⟩ | hn
  · decide +kernel
  · obtain ⟨h1, h2⟩ := h
    refine ⟨by grind, ?_, ?_⟩ <;> grind

theorem press_units {g : PressGroup} {x : MetarPressure} (hw : g.WF) (hs : g.Sensible)
    (h : PressSays g x) : PressUnits g x := by
  -- the value against the declared inch
  have key : ∀ ds, g.number = some ds → g.Inches → ∃ y : F64, x.value = some y ∧
      Rel (1 / 10 ^ 8) y.val (digitsVal ds / 100 / (2953 / 100000)) := by
    intro ds hd hi
    obtain ⟨v, e1, hv⟩ := h.inches ds hd hi
    refine ⟨⟨v, false⟩, e1, inches_gives ?_ hv⟩
    by_cases h0 : digitsVal ds = 0
    · left
      have := h.zero ds hd h0
      rw [e1] at this
      rw [h0]
      cases this
      exact ⟨rfl, rfl⟩
    · right
      have := (Rat.natCast_le_natCast (a := 1) (b := digitsVal ds)).2 (by omega)
      exact this
  have other : ∀ ds, g.number = some ds → ¬ g.Inches → x.value = some (whole (digitsVal ds)) := by
    intro ds hd hi
    have hins : g.ins = false := by
      cases e : g.ins with
      | false => rfl
      | true => exact absurd (.inr e) hi
    cases hl : g.letters with
    | none =>
      have hb : g.Bare := ⟨hl, hins⟩
      exact h.bareLow ds hd hb (hs hb ds hd)
    | some l =>
      cases l with
      | A => exact absurd (.inl hl) hi
      | Q => exact h.hecto ds hd ⟨.inl hl, hins⟩
      | QNH => exact h.hecto ds hd ⟨.inr hl, hins⟩
  have h0 : Gives (7 / 10 ^ 7) g.statedHPa x.value := by
    unfold PressGroup.statedHPa
    cases hd : g.number with
    | none => exact gives_none (h.missing hd)
    | some ds =>
      rw [Option.map_some]
      by_cases hi : g.letters = some .A ∨ g.ins = true
      · rw [if_pos hi]
        obtain ⟨y, e1, hy⟩ := key ds hd hi
        rw [e1]
        have hn : (0 : Rat) ≤ digitsVal ds := Rat.natCast_nonneg
        have h2 : Rel (6 / 10 ^ 7) ((digitsVal ds : Rat) / 100 / (2953 / 100000))
            (digitsVal ds / 100 * inchOfMercury) := by
          have hu : inchOfMercury = 33863886666667 / 1000000000000 := by decide +kernel
          rw [hu]
          generalize ((digitsVal ds : Nat) : Rat) = n at *
          refine ⟨by grind, ?_, ?_⟩ <;> grind
        exact gives_mono (gives_some (Rel.trans (by decide +kernel) hy h2)) (by decide +kernel)
      · rw [if_neg hi, other ds hd hi]
        exact gives_mono (gives_some (whole_rel _)) (by decide +kernel)
  refine ⟨gives_mono h0 (by decide +kernel), gives_congr (gives_conv unit_inHg h0 (by decide +kernel)) ?_,
    gives_congr (gives_conv unit_mbar h0 (by decide +kernel)) ?_,
    gives_congr (gives_conv unit_bar h0 (by decide +kernel)) ?_,
    gives_congr (gives_conv unit_atm h0 (by decide +kernel)) ?_, fun hi => ?_, fun hh => ?_⟩
  · congr 1
    funext d
    have hu : inchOfMercury = 33.863886666667 := rfl
    rw [hu]
    grind
  · cases g.statedHPa with
    | none => rfl
    | some q => simp only [Option.map_some, Option.some.injEq]; grind
  · congr 1
    funext d
    grind
  · congr 1
    funext d
    grind
  · cases hd : g.number with
    | none =>
      refine gives_none ?_
      show inInHg x.value = none
      rw [h.missing hd]; rfl
    | some ds =>
      obtain ⟨y, e1, hy⟩ := key ds hd hi
      have := gives_conv unit_inHg' (gives_some hy) (d := 11 / 10 ^ 9) (by decide +kernel)
      rw [← e1] at this
      refine gives_mono (gives_congr this ?_) (by decide +kernel)
      simp only [Option.map_some, Option.some.injEq]
      grind
  · cases hd : g.number with
    | none =>
      have := h.missing hd
      refine ⟨this, ?_⟩
      show inMbar x.value = x.value
      rw [this]; rfl
    | some ds =>
      have := h.hecto ds hd hh
      refine ⟨this, ?_⟩
      show inMbar x.value = x.value
      rw [this]
      have hb : digitsVal ds < 2 ^ 53 := by
        have := digitsVal_lt ds
        rw [(hw ds hd).1] at this
        omega
      have c : Conv.HPA_TO_MBAR = ⟨1, false⟩ := by decide +kernel
      unfold inMbar converted
      rw [c]
      show some (F64.mul (whole (digitsVal ds)) ⟨1, false⟩) = _
      unfold F64.mul whole
      simp only [Rat.mul_one]
      have hsg : ∀ n : Nat, (F64.mk (n : Rat) false).sgn = false := by
        intro n
        have hn : (0 : Rat) ≤ n := Rat.natCast_nonneg
        simp only [F64.sgn, Bool.or_false, decide_eq_false_iff_not]
        grind
      rw [hsg, show (F64.mk 1 false).sgn = false by decide +kernel]
      simp only [bne_self_eq_false, F64.mk'_false, rnd_natCast _ hb]

end Verif
