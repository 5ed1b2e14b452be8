import Verif.Model.MetarGroups
import Verif.Lemmas.VisForms
import Verif.Lemmas.Clouds
import Verif.Lemmas.GroupOk
import Verif.Lemmas.Read
import Verif.Lemmas.ReprRead
import Verif.Spec.Visibility

/-
Decoding of visibility groups.
-/

namespace Verif
open Spec

/-- The captured parts of a visibility group. -/
def VisGroup.cap : VisGroup → Cap → Option PyStr
  | .metres v _, .vis => some v.text
  | .metres _ d, .dir => d
  | .range r, .integer => r.integer
  | .range r, .fraction => r.fraction.map fun p => [p.1, 47, p.2]
  | .range r, .units => some r.unit.text
  | .cavok, .cavok => some py!"CAVOK"
  | _, _ => none

def visCaps : List Cap := [.vis, .dir, .integer, .fraction, .units, .cavok]

/-! ### Numbers -/

theorem Metres.distance (v : Metres) (h : v.WF) :
    strTruthy (some v.text) = true ∧ Verif.distance (some v.text) = v.number.map whole := by
  cases v with
  | undef => exact ⟨by decide, by decide +kernel⟩
  | digits ds =>
    obtain ⟨hl, hd⟩ := h
    have hn : ds ≠ [] := by rintro rfl; cases hl
    refine ⟨?_, ?_⟩
    · cases ds with
      | nil => exact absurd rfl hn
      | cons a t => rfl
    · unfold Verif.distance Metres.number Metres.text
      by_cases h9 : ds = py!"9999"
      · subst h9
        decide +kernel
      · simp only [h9, if_false, Option.map_some]
        rw [floatOf_digits_exact hn hd (by omega)]
        rfl

theorem SMI_TO_KM_rel : Rel (1 / 2 ^ 53) Conv.SMI_TO_KM.val (1852 / 1000) := by decide +kernel
theorem SMI_TO_KM_sgn : Conv.SMI_TO_KM.sgn = false := by decide +kernel
theorem KM_TO_M_val : Conv.KM_TO_M = ⟨1000, false⟩ := by decide +kernel

theorem Spec.Rel.add_right {e x y c : Rat} (he : 0 ≤ e) (hc : 0 ≤ c) (h : Rel e x y) :
    Rel e (x + c) (y + c) := by
  obtain ⟨hy, h1, h2⟩ := h
  have := Rat.mul_nonneg he hc
  refine ⟨by grind, ?_, ?_⟩ <;> grind

theorem strTruthy_digits {ds : PyStr} (hn : ds ≠ []) : strTruthy (some ds) = true := by
  cases ds with
  | nil => exact absurd rfl hn
  | cons a t => rfl

/-- The fraction, up to rounding. -/
theorem fractionOf_value (f : Option (Nat × Nat))
    (h : ∀ a b, f = some (a, b) → isDigit a = true ∧ isDigit b = true) :
    (∀ a b, f = some (a, b) → digitVal b = 0 →
      fractionOf (f.map fun p => [p.1, 47, p.2]) = .error .zeroDiv) ∧
    ((∀ a b, f = some (a, b) → digitVal b ≠ 0) → ∃ x : Rat,
      fractionOf (f.map fun p => [p.1, 47, p.2]) = .ok ⟨x, false⟩ ∧
      Rel ulp x (fractionPart f)) := by
  cases f with
  | none =>
    refine ⟨by simp, fun _ => ⟨0, by decide +kernel, by decide +kernel⟩⟩
  | some p =>
    obtain ⟨a, b⟩ := p
    obtain ⟨ha, hb⟩ := h a b rfl
    have hsh : HasShape [.digit, CC.one 47, .digit] [a, 47, b] :=
      ⟨a, _, rfl, ha, 47, _, rfl, by decide, b, _, rfl, hb, rfl⟩
    obtain ⟨a', b', -, -, e, hsp⟩ := fraction_parts hsh
    cases e
    have hva : ∀ c, digitsVal [c] = digitVal c := by intro c; simp [digitsVal]
    have key : fractionOf ((some (a, b)).map fun p => [p.1, 47, p.2]) =
        if digitVal b = 0 then .error .zeroDiv
        else .ok (F64.lit (mkRat (digitVal a) (digitVal b))) := by
      unfold fractionOf
      simp only [Option.map_some, strTruthy_digits (List.cons_ne_nil _ _), if_true,
        Option.getD_some, hsp, List.getElem?_cons_zero, List.getElem?_cons_succ,
        pyInt_digits (s := [a]) (by simp) (by simpa [Digits] using ha),
        pyInt_digits (s := [b]) (by simp) (by simpa [Digits] using hb), ok_bind, hva]
      split <;> rfl
    rw [key]
    refine ⟨?_, fun hz => ?_⟩
    · rintro _ _ ⟨⟩ hz
      rw [if_pos hz]
    · have hz := hz a b rfl
      rw [if_neg hz]
      refine ⟨rnd (mkRat (digitVal a) (digitVal b)), by rw [F64.lit, F64.mk'_false], ?_⟩
      have := rnd_relW _ (mkRat_nat_nonneg (digitVal a) (digitVal b))
      rw [Rat.mkRat_eq_div, Rat.intCast_natCast] at this
      rw [Rat.mkRat_eq_div, Rat.intCast_natCast]
      exact this

theorem addInteger_value {x y : Rat} (hxy : Rel ulp x y) (i : Option PyStr)
    (h : ∀ ds, i = some ds → (ds.length = 1 ∨ ds.length = 2) ∧ ∀ c ∈ ds, isDigit c = true) :
    ∃ v : Rat, addInteger ⟨x, false⟩ i = .ok ⟨v, false⟩ ∧
      Rel (ulp + ulp + ulp * ulp) v (wholePart i + y) := by
  cases i with
  | none =>
    refine ⟨x, rfl, ?_⟩
    simp only [wholePart, Rat.zero_add]
    exact hxy.mono (by decide +kernel)
  | some ds =>
    obtain ⟨hl, hd⟩ := h ds rfl
    have hn : ds ≠ [] := by rintro rfl; simp at hl
    have h0 : (0 : Rat) ≤ (digitsVal ds : Nat) := Rat.natCast_nonneg
    refine ⟨rnd (x + digitsVal ds), ?_, ?_⟩
    · unfold addInteger
      rw [strTruthy_digits hn, if_pos rfl, pyFloat, floatOf_digits_exact hn hd (by omega)]
      show Except.ok _ = _
      unfold F64.add
      rw [F64.sgn_false h0, Bool.and_false, F64.mk'_false]
    · unfold wholePart
      rw [Rat.add_comm (digitsVal ds : Rat) y]
      exact (hxy.add_right (by decide +kernel) h0).rnd (by decide +kernel)

theorem fraction_written : ∀ a ∈ List.range 10, ∀ b ∈ List.range 10, b ≠ 0 →
    (a : Rat) / (b : Rat) = 0 ∨ 1 / 10 ≤ (a : Rat) / (b : Rat) ∧ (a : Rat) / (b : Rat) ≤ 9 := by
  decide +kernel

theorem amount_written (r : Range) (h : r.WF) (hz : ∀ a b, r.fraction = some (a, b) → digitVal b ≠ 0) :
    r.amount = 0 ∨ 1 / 10 ≤ r.amount ∧ r.amount ≤ 108 := by
  have h1 : wholePart r.integer = 0 ∨ 1 ≤ wholePart r.integer ∧ wholePart r.integer ≤ 99 := by
    unfold wholePart
    cases hi : r.integer with
    | none => exact .inl rfl
    | some ds =>
      have hl := (h.1 ds hi).1
      have hv : digitsVal ds < 100 := by
        have := digitsVal_lt ds
        rcases hl with e | e <;> rw [e] at this <;> omega
      simp only
      rcases Nat.eq_zero_or_pos (digitsVal ds) with e | e
      · left; rw [e]; rfl
      · exact .inr ⟨Rat.natCast_le_natCast.2 e, Rat.natCast_le_natCast.2 (show digitsVal ds ≤ 99 by omega)⟩
  have h2 : fractionPart r.fraction = 0 ∨ 1 / 10 ≤ fractionPart r.fraction ∧ fractionPart r.fraction ≤ 9 := by
    unfold fractionPart
    cases hf : r.fraction with
    | none => exact .inl rfl
    | some p =>
      exact fraction_written (digitVal p.1) (List.mem_range.2 (digitVal_lt _)) (digitVal p.2)
        (List.mem_range.2 (digitVal_lt _)) (hz p.1 p.2 hf)
  unfold Range.amount
  generalize wholePart r.integer = u at *
  generalize fractionPart r.fraction = w at *
  grind

theorem fromSeaMiles_value (r : Range) (h : r.WF) :
    (∀ a b, r.fraction = some (a, b) → digitVal b = 0 →
      fromSeaMiles r.integer (r.fraction.map fun p => [p.1, 47, p.2]) = .error .zeroDiv) ∧
    ((∀ a b, r.fraction = some (a, b) → digitVal b ≠ 0) → ∃ v : Rat,
      fromSeaMiles r.integer (r.fraction.map fun p => [p.1, 47, p.2]) = .ok (some ⟨v, false⟩) ∧
      Rel (1 / 10 ^ 15) v (r.amount * 1852)) := by
  obtain ⟨h1, h2⟩ := fractionOf_value r.fraction h.2
  refine ⟨fun a b hf hb => ?_, fun hz => ?_⟩
  · unfold fromSeaMiles
    rw [h1 a b hf hb]
    rfl
  · obtain ⟨x, hx, hr⟩ := h2 hz
    obtain ⟨v, hv, hvr⟩ := addInteger_value hr r.integer h.1
    change Rel _ v r.amount at hvr
    have hv0 : 0 ≤ v := hvr.nonneg (by decide +kernel)
    have hc0 : 0 ≤ Conv.SMI_TO_KM.val := by decide +kernel
    have h3 : Rel _ (v * Conv.SMI_TO_KM.val) (r.amount * (1852 / 1000)) :=
      Rel.trans (by decide +kernel) (hvr.mul_right hc0) (SMI_TO_KM_rel.mul_left hvr.1)
    have h4 := h3.rnd (by decide +kernel)
    have h5 := h4.mul_right (c := 1000) (by decide)
    have h6 := h5.rnd (by decide +kernel)
    refine ⟨rnd (rnd (v * Conv.SMI_TO_KM.val) * 1000), ?_, ?_⟩
    · unfold fromSeaMiles
      rw [hx, ok_bind, hv, ok_bind, F64.mul_pos_val (F64.sgn_false hv0) SMI_TO_KM_sgn, KM_TO_M_val,
        F64.mul_pos_val (F64.sgn_false (h4.nonneg (by decide +kernel))) (F64.sgn_false (by decide))]
      have ha : r.amount * (1852 / 1000) * 1000 = 0 ∨ 1 / 10 ≤ r.amount * (1852 / 1000) * 1000 ∧
          r.amount * (1852 / 1000) * 1000 ≤ 10 ^ 6 := by
        have := amount_written r h hz
        have h6 : (1000000 : Rat) = 10 ^ 6 := by decide +kernel
        rw [← h6]
        clear h3 h4 h5 h6
        grind
      have hw := written_rnd (h5.written (by decide +kernel) ha)
      exact congrArg Except.ok (distance_repr hw.1 hw.2)
    · have e : r.amount * (1852 / 1000) * 1000 = r.amount * 1852 := by
        have : (1852 / 1000 : Rat) * 1000 = 1852 := by decide +kernel
        rw [Rat.mul_assoc, this]
      rw [e] at h6
      exact h6.mono (by decide +kernel)

theorem km_value {ds : PyStr} (hl : ds.length = 1 ∨ ds.length = 2) :
    distance (some (padNat 4 (digitsVal ds * 1000))) = some (whole (digitsVal ds * 1000)) := by
  have hlt : digitsVal ds < 100 := by
    have := digitsVal_lt ds
    rcases hl with hl | hl <;> rw [hl] at this <;> omega
  generalize digitsVal ds = n at *
  have : ∀ n ∈ List.range 100, distance (some (padNat 4 (n * 1000))) = some (whole (n * 1000)) := by
    decide +kernel
  exact this n (List.mem_range.2 hlt)

/-! ### The attribute -/

theorem visDirection_value : ∀ p ∈ visSuffixes, visDirection (some p.1) =
    match p.2 with | some n => .ok ⟨some (whole n), false⟩ | none => .error .value := by
  decide +kernel

theorem visSuffixes_raises : ∀ p ∈ visSuffixes,
    (VisGroup.metres .undef (some p.1)).raises = (if p.2 = none then some .value else none) ∧
    visSuffixes.lookup p.1 = some p.2 := by
  decide +kernel

theorem visDirection_metres (v : Metres) (dir : Option PyStr)
    (h : ∀ d, dir = some d → d ∈ visSuffixes.map (·.1)) :
    (∀ e, (VisGroup.metres v dir).raises = some e → visDirection dir = .error e) ∧
    ((VisGroup.metres v dir).raises = none →
      visDirection dir = .ok ⟨(VisGroup.metres v dir).degrees.map whole, false⟩) := by
  cases dir with
  | none => exact ⟨(by intro e h; cases h), fun _ => rfl⟩
  | some d =>
    obtain ⟨p, hp, rfl⟩ := List.mem_map.1 (h d rfl)
    have h1 := visDirection_value p hp
    obtain ⟨h2, h3⟩ := visSuffixes_raises p hp
    have h2' : (VisGroup.metres v (some p.1)).raises = (if p.2 = none then some .value else none) := h2
    have h4 : (VisGroup.metres v (some p.1)).degrees = p.2 := by
      show (visSuffixes.lookup p.1).getD none = p.2
      rw [h3]
      rfl
    rw [h2', h1, h4]
    cases p.2 with
    | none => simp
    | some n => simp

theorem VisGroup.raises_range (r : Range) (e : Exc) : (VisGroup.range r).raises = some e ↔
    (r.unit = .sm ∧ e = .zeroDiv ∧ ∃ a b, r.fraction = some (a, b) ∧ digitVal b = 0) ∨
    (r.unit = .km ∧ e = .type ∧ r.integer = none ∧ r.fraction ≠ none) := by
  obtain ⟨bound, integer, joined, fraction, unit⟩ := r
  rcases unit with _ | _ | _ | _ <;> rcases integer with _ | i <;>
    rcases fraction with _ | ⟨a, b⟩ <;> simp [VisGroup.raises] <;>
    first
      | exact ⟨fun h => ⟨h.2.symm, a, b, ⟨rfl, rfl⟩, h.1⟩,
          fun ⟨h1, _, _, ⟨rfl, rfl⟩, h2⟩ => ⟨h2, h1.symm⟩⟩
      | exact eq_comm
      | skip

theorem prevailingSize_range (r : Range) (h : r.WF) :
    (∀ e, (VisGroup.range r).raises = some e →
      prevailingSize none r.integer (r.fraction.map fun p => [p.1, 47, p.2]) (some r.unit.text) =
        .error e) ∧
    ((VisGroup.range r).raises = none → ∃ v,
      prevailingSize none r.integer (r.fraction.map fun p => [p.1, 47, p.2]) (some r.unit.text) =
        .ok v ∧ (VisGroup.range r).SaysMetres v) := by
  have hi : strTruthy r.integer = r.integer.isSome := by
    cases hi : r.integer with
    | none => rfl
    | some ds =>
      have := (h.1 ds hi).1
      rw [strTruthy_digits (by rintro rfl; simp at this)]
      rfl
  have hf : strTruthy (r.fraction.map fun p => [p.1, 47, p.2]) = r.fraction.isSome := by
    cases hi : r.fraction <;> rfl
  have hd : (if strTruthy (none : Option PyStr) = true ∨ some r.unit.text = some py!"M" then distance none
      else distance none) = none := by
    have : distance none = none := by decide +kernel
    rw [this, ite_self]
  have hbase : prevailingSize none r.integer (r.fraction.map fun p => [p.1, 47, p.2])
      (some r.unit.text) =
      if r.integer.isSome ∨ r.fraction.isSome then
        if r.unit = .sm then fromSeaMiles r.integer (r.fraction.map fun p => [p.1, 47, p.2])
        else if r.unit = .km then do
          let n ← pyInt r.integer
          return distance (some (padNat 4 (n * 1000)))
        else return none
      else return none := by
    unfold prevailingSize
    simp only [hi, hf, hd]
    cases r.unit <;> rfl
  rw [hbase]
  obtain ⟨g1, g2⟩ := fromSeaMiles_value r h
  constructor
  · intro e he
    rw [VisGroup.raises_range] at he
    rcases he with ⟨hu, rfl, a, b, hab, hb⟩ | ⟨hu, rfl, hin, hfr⟩
    · rw [if_pos (by simp [hab]), if_pos hu]
      exact g1 a b hab hb
    · have : r.fraction.isSome = true := by
        cases hh : r.fraction with
        | none => exact absurd hh hfr
        | some _ => rfl
      rw [if_pos (by simp [this]), if_neg (by simp [hu]), if_pos hu, hin]
      rfl
  · intro hn
    have hne : ∀ e, ¬ (VisGroup.range r).raises = some e := by rw [hn]; simp
    cases hu : r.unit with
    | sm =>
      simp only [VisGroup.SaysMetres, hu]
      by_cases hb : r.integer = none ∧ r.fraction = none
      · refine ⟨none, ?_, by rw [if_pos hb]⟩
        rw [if_neg (by simp [hb.1, hb.2])]
        rfl
      · obtain ⟨v, hv, hr⟩ := g2 fun a b hab hz =>
          hne .zeroDiv ((VisGroup.raises_range r _).2 (.inl ⟨hu, rfl, a, b, hab, hz⟩))
        refine ⟨some ⟨v, false⟩, ?_, by rw [if_neg hb]; exact ⟨v, rfl, hr⟩⟩
        rw [if_pos, if_pos (by simp)]
        · exact hv
        · cases h1 : r.integer with
          | some _ => exact .inl rfl
          | none =>
            cases h2 : r.fraction with
            | some _ => exact .inr rfl
            | none => exact absurd ⟨h1, h2⟩ hb
    | km =>
      simp only [VisGroup.SaysMetres, hu]
      refine ⟨_, ?_, rfl⟩
      cases h1 : r.integer with
      | some ds =>
        obtain ⟨hl, hdd⟩ := h.1 ds h1
        rw [if_pos (.inl rfl), if_neg (by simp), if_pos (by simp),
          pyInt_digits (by rintro rfl; simp at hl) hdd, ok_bind, km_value hl]
        rfl
      | none =>
        cases h2 : r.fraction with
        | none => rfl
        | some p =>
          exact absurd ((VisGroup.raises_range r .type).2 (.inr ⟨hu, rfl, h1, by simp [h2]⟩)) (hne _)
    | m =>
      simp only [VisGroup.SaysMetres, hu, reduceCtorEq, if_false, ite_self]
      exact ⟨_, rfl, rfl⟩
    | u =>
      simp only [VisGroup.SaysMetres, hu, reduceCtorEq, if_false, ite_self]
      exact ⟨_, rfl, rfl⟩

theorem prevailing_value (w : VisGroup) (hw : w.WF) {m : Match}
    (h : ∀ c ∈ visCaps, m.group c = VisGroup.cap w c) :
    (∀ e, w.raises = some e → prevailing m = .error e) ∧
    (w.raises = none → ∃ x, prevailing m = .ok x ∧ VisSays w x) := by
  unfold prevailing
  rw [h .vis (by decide), h .integer (by decide), h .fraction (by decide), h .units (by decide),
    h .dir (by decide), h .cavok (by decide)]
  cases w with
  | metres v dir =>
    obtain ⟨h1, h2⟩ := visDirection_metres v dir hw.2
    obtain ⟨h3, h4⟩ := Metres.distance v hw.1
    have hv : prevailingSize (some v.text) none none none = .ok (v.number.map whole) := by
      unfold prevailingSize
      simp only [h3, true_or, if_true, h4]
      rfl
    simp only [VisGroup.cap, hv, ok_bind]
    constructor
    · intro e he
      rw [h1 e he]
      rfl
    · intro hn
      rw [h2 hn, ok_bind]
      refine ⟨_, rfl, rfl, rfl, ?_⟩
      simp
  | range r =>
    obtain ⟨h1, h2⟩ := prevailingSize_range r hw
    simp only [VisGroup.cap]
    constructor
    · intro e he
      rw [h1 e he]
      rfl
    · intro hn
      obtain ⟨v, hv, hs⟩ := h2 hn
      rw [hv, ok_bind]
      refine ⟨_, rfl, hs, rfl, ?_⟩
      simp
  | cavok =>
    refine ⟨(by intro e he; cases he), fun _ => ?_⟩
    have h1 : distance (some py!"9999") = some (whole 10000) := by decide +kernel
    have h2 : prevailingSize none none none none = .ok none := by decide +kernel
    simp only [VisGroup.cap, h2, ok_bind, visDirection, h1]
    exact ⟨_, rfl, rfl, rfl, by simp⟩

theorem minimumVisibility_value (v : Metres) (dir : Option PyStr) (hw : (VisGroup.metres v dir).WF)
    {m : Match} (h1 : m.group .vis = some v.text) (h2 : m.group .dir = dir) :
    (∀ e, (VisGroup.metres v dir).raises = some e → minimumVisibility m = .error e) ∧
    ((VisGroup.metres v dir).raises = none →
      ∃ x, minimumVisibility m = .ok x ∧ VisSays (.metres v dir) x) := by
  obtain ⟨g1, g2⟩ := visDirection_metres v dir hw.2
  obtain ⟨g3, g4⟩ := Metres.distance v hw.1
  unfold minimumVisibility
  simp only [h1, h2, g3, if_true, g4]
  constructor
  · intro e he
    rw [g1 e he]
    rfl
  · intro hn
    rw [g2 hn, ok_bind]
    exact ⟨_, rfl, rfl, rfl, by simp⟩

/-! ### Texts and forms -/

def VisGroup.pieces : VisGroup → List PyStr
  | .metres v d => [v.text, d.getD []]
  | .range r => [r.bound.text, r.integer.getD [], if r.joined then py!"_" else [],
      fractionText r.fraction, r.unit.text]
  | .cavok => [py!"CAVOK"]

theorem VisGroup.pieces_flatten (w : VisGroup) : (VisGroup.pieces w).flatten = w.text := by
  cases w with
  | metres v d => simp [pieces, VisGroup.text]
  | range r => simp [pieces, VisGroup.text, Range.text]
  | cavok => rfl

/-- The captures of the form are the parts of the group. -/
def FormCaps (f : Form) (ts : List PyStr) (w : VisGroup) : Prop :=
  ∀ c ∈ visCaps, ∃ o, (c, o) ∈ f.2 ∧ (o.map fun i => (ts[i]?).getD []) = VisGroup.cap w c

theorem Metres.shape (v : Metres) (h : v.WF) :
    ∃ k ∈ [List.replicate 4 CC.digit, litShape py!"////"], HasShape k v.text ∧
      (k = litShape py!"////" → v = .undef) := by
  cases v with
  | digits ds => exact ⟨_, by simp, hasShape_digits h.2 h.1, fun h => absurd h (by decide)⟩
  | undef => exact ⟨_, by simp, hasShape_lit py!"////", fun _ => rfl⟩

theorem Metres.shape_inv {k : List CC} {t : PyStr}
    (hk : k ∈ [List.replicate 4 CC.digit, litShape py!"////"]) (h : HasShape k t) :
    ∃ v : Metres, v.WF ∧ t = v.text ∧ (v = .undef → k = litShape py!"////") := by
  simp only [List.mem_cons, List.not_mem_nil, or_false] at hk
  rcases hk with rfl | rfl
  · obtain ⟨h1, h2⟩ := h.digits
    exact ⟨.digits t, ⟨h2, h1⟩, rfl, by simp⟩
  · exact ⟨.undef, trivial, hasShape_lit_iff.1 h, fun _ => rfl⟩

theorem suffix_shape : ∀ d ∈ visSuffixes.map (·.1),
    (hasShapeB [nsew] d || hasShapeB [nsew, ew] d) = true := by decide +kernel

theorem suffix_inv {d : PyStr} (h : HasShape [nsew] d ∨ HasShape [nsew, ew] d) :
    d ∈ visSuffixes.map (·.1) := by
  have h4 : ∀ c, nsew.mem c = true → c = 78 ∨ c = 83 ∨ c = 69 ∨ c = 87 := by
    intro c hc
    simp [nsew, CC.mem, CC.ranges, inRanges] at hc
    omega
  have h2 : ∀ c, ew.mem c = true → c = 69 ∨ c = 87 := by
    intro c hc
    simp [ew, CC.mem, CC.ranges, inRanges] at hc
    omega
  rcases h with ⟨a, _, rfl, ha, hn⟩ | ⟨a, _, rfl, ha, b, _, rfl, hb, hn⟩
  · cases hn
    rcases h4 a ha with rfl | rfl | rfl | rfl <;> decide
  · cases hn
    rcases h4 a ha with rfl | rfl | rfl | rfl <;> rcases h2 b hb with rfl | rfl <;> decide

theorem metresForms_mem {vs : List (List CC)} {extra : List (Cap × Option Nat)} (v : Metres)
    (dir : Option PyStr) (h : (VisGroup.metres v dir).WF) {k : List CC} (hk : k ∈ vs)
    (hs : HasShape k v.text) :
    ∃ f ∈ metresForms vs extra, Shapes f.1 (VisGroup.pieces (.metres v dir)) ∧
      f.2 = (.vis, some 0) :: (.dir, dir.map fun _ => 1) :: extra := by
  unfold metresForms
  simp only [List.mem_flatMap, List.mem_map]
  cases dir with
  | none => exact ⟨_, ⟨k, hk, ([], none), by simp, rfl⟩, ⟨hs, rfl, trivial⟩, rfl⟩
  | some d =>
    have := suffix_shape d (h.2 d rfl)
    rw [Bool.or_eq_true] at this
    rcases this with h | h
    · exact ⟨_, ⟨k, hk, ([nsew], some 1), by simp, rfl⟩, ⟨hs, hasShapeB_sound h, trivial⟩, rfl⟩
    · exact ⟨_, ⟨k, hk, ([nsew, ew], some 1), by simp, rfl⟩, ⟨hs, hasShapeB_sound h, trivial⟩, rfl⟩

theorem metresForms_inv {vs : List (List CC)} {extra : List (Cap × Option Nat)} {f : Form}
    (hf : f ∈ metresForms vs extra) {ts : List PyStr} (hs : Shapes f.1 ts) :
    ∃ k ∈ vs, ∃ t dir, HasShape k t ∧ (∀ d, dir = some d → d ∈ visSuffixes.map (·.1)) ∧
      ts = [t, dir.getD []] ∧ f.2 = (.vis, some 0) :: (.dir, dir.map fun _ => 1) :: extra := by
  unfold metresForms at hf
  simp only [List.mem_flatMap, List.mem_map] at hf
  obtain ⟨k, hk, d, hd, rfl⟩ := hf
  obtain ⟨t1, _, rfl, h1, hs⟩ := hs.cons_inv
  obtain ⟨t2, _, rfl, h2, hs⟩ := hs.cons_inv
  cases hs.nil_inv
  simp only [List.mem_cons, List.not_mem_nil, or_false] at hd
  rcases hd with rfl | rfl | rfl
  · cases h2
    exact ⟨k, hk, t1, none, h1, by simp, rfl, rfl⟩
  · exact ⟨k, hk, t1, some t2, h1, by rintro _ ⟨⟩; exact suffix_inv (.inl h2), rfl, rfl⟩
  · exact ⟨k, hk, t1, some t2, h1, by rintro _ ⟨⟩; exact suffix_inv (.inr h2), rfl, rfl⟩

theorem metres_caps {f : Form} {t : PyStr} {v : Metres} {dir : Option PyStr} (ht : t = v.text)
    (hf : f.2 = (.vis, some 0) :: (.dir, dir.map fun _ => 1) :: noRange) :
    FormCaps f [t, dir.getD []] (.metres v dir) := by
  subst ht
  unfold FormCaps visCaps
  rw [hf]
  simp only [List.mem_cons, List.not_mem_nil, or_false]
  rintro c (rfl | rfl | rfl | rfl | rfl | rfl)
  · exact ⟨some 0, by simp, rfl⟩
  · refine ⟨dir.map fun _ => 1, by simp, ?_⟩
    cases dir <;> rfl
  all_goals exact ⟨none, by simp [noRange], rfl⟩

theorem range_caps {f : Form} (r : Range)
    (hf : f.2 = [(.integer, r.integer.map fun _ => 1), (.fraction, r.fraction.map fun _ => 3),
      (.units, some 4), (.vis, none), (.dir, none), (.cavok, none)]) :
    FormCaps f (VisGroup.pieces (.range r)) (.range r) := by
  unfold FormCaps visCaps
  rw [hf]
  simp only [List.mem_cons, List.not_mem_nil, or_false]
  rintro c (rfl | rfl | rfl | rfl | rfl | rfl)
  · exact ⟨none, by simp, rfl⟩
  · exact ⟨none, by simp, rfl⟩
  · refine ⟨r.integer.map fun _ => 1, by simp, ?_⟩
    simp only [VisGroup.pieces, VisGroup.cap]
    cases r.integer <;> rfl
  · refine ⟨r.fraction.map fun _ => 3, by simp, ?_⟩
    simp only [VisGroup.pieces, VisGroup.cap]
    cases r.fraction <;> rfl
  · exact ⟨some 4, by simp, rfl⟩
  · exact ⟨none, by simp, rfl⟩

theorem rangeForms_mem (r : Range) (h : r.WF) :
    ∃ f ∈ rangeForms, Shapes f.1 (VisGroup.pieces (.range r)) ∧
      FormCaps f (VisGroup.pieces (.range r)) (.range r) := by
  have hb : litShape r.bound.text ∈ [litShape [], litShape py!"M", litShape py!"P"] := by
    cases r.bound <;> simp [VisBound.text]
  have hj : litShape (if r.joined then py!"_" else []) ∈ [litShape [], litShape py!"_"] := by
    cases r.joined <;> simp
  have hu : litShape r.unit.text ∈
      [litShape py!"SM", litShape py!"KM", litShape py!"M", litShape py!"U"] := by
    cases r.unit <;> simp [VisUnit.text]
  have hi : ∃ i ∈ [([], none), (List.replicate 1 CC.digit, some 1), (List.replicate 2 .digit, some 1)],
      HasShape i.1 (r.integer.getD []) ∧ i.2 = r.integer.map fun _ => 1 := by
    cases hi : r.integer with
    | none => exact ⟨([], none), by simp, rfl, rfl⟩
    | some ds =>
      obtain ⟨hl, hd⟩ := h.1 ds hi
      refine ⟨(List.replicate ds.length .digit, some 1), ?_, hasShape_digits hd rfl, rfl⟩
      rcases hl with hl | hl <;> rw [hl] <;> simp
  have hfr : ∃ i ∈ [([], none), ([.digit, CC.one 47, .digit], some 3)],
      HasShape i.1 (fractionText r.fraction) ∧
        i.2 = r.fraction.map fun _ => 3 := by
    cases hi : r.fraction with
    | none => exact ⟨([], none), by simp, rfl, rfl⟩
    | some p =>
      obtain ⟨a, b⟩ := p
      obtain ⟨ha, hb⟩ := h.2 a b hi
      exact ⟨([.digit, CC.one 47, .digit], some 3), by simp,
        ⟨a, _, rfl, ha, 47, _, rfl, by decide, b, _, rfl, hb, rfl⟩, rfl⟩
  obtain ⟨i, hi, hi1, hi2⟩ := hi
  obtain ⟨fr, hf, hf1, hf2⟩ := hfr
  unfold rangeForms
  simp only [List.mem_flatMap, List.mem_map]
  refine ⟨_, ⟨_, hb, i, hi, _, hj, fr, hf, _, hu, rfl⟩, ?_, ?_⟩
  · exact ⟨hasShape_lit _, hi1, hasShape_lit _, hf1, hasShape_lit _, trivial⟩
  · apply range_caps
    rw [hi2, hf2]

theorem rangeForms_inv {f : Form} (hf : f ∈ rangeForms) {ts : List PyStr} (hs : Shapes f.1 ts) :
    ∃ r : Range, r.WF ∧ ts = VisGroup.pieces (.range r) ∧ FormCaps f ts (.range r) := by
  unfold rangeForms at hf
  simp only [List.mem_flatMap, List.mem_map] at hf
  obtain ⟨b, hb, i, hi, j, hj, fr, hfr, u, hu, rfl⟩ := hf
  obtain ⟨t1, _, rfl, h1, hs⟩ := hs.cons_inv
  obtain ⟨t2, _, rfl, h2, hs⟩ := hs.cons_inv
  obtain ⟨t3, _, rfl, h3, hs⟩ := hs.cons_inv
  obtain ⟨t4, _, rfl, h4, hs⟩ := hs.cons_inv
  obtain ⟨t5, _, rfl, h5, hs⟩ := hs.cons_inv
  cases hs.nil_inv
  have eb : ∃ b : VisBound, t1 = b.text := by
    simp only [List.mem_cons, List.not_mem_nil, or_false] at hb
    rcases hb with rfl | rfl | rfl
    · exact ⟨.exact, hasShape_lit_iff.1 h1⟩
    · exact ⟨.below, hasShape_lit_iff.1 h1⟩
    · exact ⟨.above, hasShape_lit_iff.1 h1⟩
  have ei : ∃ n : Option PyStr, t2 = n.getD [] ∧ (i.2 = n.map fun _ => 1) ∧
      ∀ ds, n = some ds → (ds.length = 1 ∨ ds.length = 2) ∧ ∀ c ∈ ds, isDigit c = true := by
    simp only [List.mem_cons, List.not_mem_nil, or_false] at hi
    rcases hi with rfl | rfl | rfl
    · cases h2
      exact ⟨none, rfl, rfl, by simp⟩
    · obtain ⟨g1, g2⟩ := h2.digits
      exact ⟨some t2, rfl, rfl, by rintro _ ⟨⟩; exact ⟨.inl g2, g1⟩⟩
    · obtain ⟨g1, g2⟩ := h2.digits
      exact ⟨some t2, rfl, rfl, by rintro _ ⟨⟩; exact ⟨.inr g2, g1⟩⟩
  have ej : ∃ j : Bool, t3 = if j then py!"_" else [] := by
    simp only [List.mem_cons, List.not_mem_nil, or_false] at hj
    rcases hj with rfl | rfl
    · exact ⟨false, hasShape_lit_iff.1 h3⟩
    · exact ⟨true, hasShape_lit_iff.1 h3⟩
  have ef : ∃ n : Option (Nat × Nat), t4 = fractionText n ∧
      (fr.2 = n.map fun _ => 3) ∧ ∀ a b, n = some (a, b) → isDigit a = true ∧ isDigit b = true := by
    simp only [List.mem_cons, List.not_mem_nil, or_false] at hfr
    rcases hfr with rfl | rfl
    · cases h4
      exact ⟨none, rfl, rfl, by simp⟩
    · obtain ⟨a, b, ha, hb, rfl, -⟩ := fraction_parts h4
      exact ⟨some (a, b), rfl, rfl, by rintro _ _ ⟨⟩; exact ⟨ha, hb⟩⟩
  have eu : ∃ k : VisUnit, t5 = k.text := by
    simp only [List.mem_cons, List.not_mem_nil, or_false] at hu
    rcases hu with rfl | rfl | rfl | rfl
    · exact ⟨.sm, hasShape_lit_iff.1 h5⟩
    · exact ⟨.km, hasShape_lit_iff.1 h5⟩
    · exact ⟨.m, hasShape_lit_iff.1 h5⟩
    · exact ⟨.u, hasShape_lit_iff.1 h5⟩
  obtain ⟨b, rfl⟩ := eb
  obtain ⟨n, rfl, hi, hn⟩ := ei
  obtain ⟨j, rfl⟩ := ej
  obtain ⟨q, rfl, hq, hq'⟩ := ef
  obtain ⟨k, rfl⟩ := eu
  have hp : [b.text, n.getD [], if j then py!"_" else [],
      fractionText q, k.text] =
      VisGroup.pieces (.range ⟨b, n, j, q, k⟩) := rfl
  refine ⟨⟨b, n, j, q, k⟩, ⟨hn, hq'⟩, hp, ?_⟩
  rw [hp]
  apply range_caps
  simp only [hi, hq]

theorem cavok_caps : FormCaps cavokForm (VisGroup.pieces .cavok) .cavok := by
  unfold FormCaps visCaps
  simp only [List.mem_cons, List.not_mem_nil, or_false]
  rintro c (rfl | rfl | rfl | rfl | rfl | rfl)
  all_goals first
    | exact ⟨none, by simp [cavokForm], rfl⟩
    | exact ⟨some 0, by simp [cavokForm], rfl⟩

theorem allForms_mem {vs : List (List CC)} (w : VisGroup) (h : w.WF)
    (hv : ∀ v d, w = .metres v d → ∃ k ∈ vs, HasShape k v.text) :
    ∃ f ∈ metresForms vs noRange ++ rangeForms ++ [cavokForm],
      Shapes f.1 (VisGroup.pieces w) ∧ FormCaps f (VisGroup.pieces w) w := by
  cases w with
  | metres v d =>
    obtain ⟨k, hk, hs⟩ := hv v d rfl
    obtain ⟨f, hf, h1, h2⟩ := metresForms_mem (extra := noRange) v d h hk hs
    exact ⟨f, by simp [hf], h1, metres_caps rfl h2⟩
  | range r =>
    obtain ⟨f, hf, h1, h2⟩ := rangeForms_mem r h
    exact ⟨f, by simp [hf], h1, h2⟩
  | cavok => exact ⟨cavokForm, by simp, ⟨hasShape_lit py!"CAVOK", trivial⟩, cavok_caps⟩

theorem allForms_inv {vs : List (List CC)} {f : Form}
    (hf : f ∈ metresForms vs noRange ++ rangeForms ++ [cavokForm])
    (hvs : ∀ k ∈ vs, k ∈ [List.replicate 4 CC.digit, litShape py!"////"]) {ts : List PyStr}
    (hs : Shapes f.1 ts) :
    ∃ w : VisGroup, w.WF ∧ ts.flatten = w.text ∧ FormCaps f ts w ∧
      ((litShape py!"////" ∉ vs) → ∀ d, w ≠ .metres .undef d) := by
  simp only [List.mem_append, List.mem_singleton] at hf
  rcases hf with (hf | hf) | rfl
  · obtain ⟨k, hk, t, dir, h1, h2, rfl, h3⟩ := metresForms_inv hf hs
    obtain ⟨v, hv, ht, hv'⟩ := Metres.shape_inv (hvs k hk) h1
    refine ⟨.metres v dir, ⟨hv, h2⟩, by simp [VisGroup.text, ht], metres_caps ht h3, ?_⟩
    rintro hl d ⟨⟩
    exact hl (hv' rfl ▸ hk)
  · obtain ⟨r, h1, rfl, h2⟩ := rangeForms_inv hf hs
    exact ⟨.range r, h1, VisGroup.pieces_flatten _, h2, by simp⟩
  · obtain ⟨t, _, rfl, h1, hs⟩ := hs.cons_inv
    cases hs.nil_inv
    rw [hasShape_lit_iff.1 h1]
    exact ⟨.cavok, trivial, rfl, cavok_caps, by simp⟩

/-! ### Results -/

theorem FormCaps.apply {f : Form} {ts : List PyStr} {w : VisGroup} (h : FormCaps f ts w) {m : Match}
    (hm : ∀ co ∈ f.2, m.group co.1 = co.2.map fun i => (ts[i]?).getD []) :
    ∀ c ∈ visCaps, m.group c = VisGroup.cap w c := by
  intro c hc
  obtain ⟨o, ho, he⟩ := h c hc
  rw [← he]
  exact hm _ ho

theorem metarVis_match (w : VisGroup) (h : w.WF) :
    ∃ m, MetarRegExp.VISIBILITY.match w.text = some m ∧
      (∀ e, w.raises = some e → prevailing m = .error e) ∧
      (w.raises = none → ∃ x, prevailing m = .ok x ∧ VisSays w x) := by
  obtain ⟨f, hf, hs, hc⟩ := allForms_mem
    (vs := [List.replicate 4 .digit, litShape py!"////"]) w h
    (by
      rintro v d rfl
      obtain ⟨k, hk, hs, -⟩ := Metres.shape v h.1
      exact ⟨k, hk, hs⟩)
  obtain ⟨m, e1, -, e3⟩ := RE.exact_match vis_exact hf hs
  rw [VisGroup.pieces_flatten] at e1
  exact ⟨m, e1, prevailing_value w h (hc.apply e3)⟩

theorem metarVis_only {s : PyStr} {m : Match} (hm : MetarRegExp.VISIBILITY.match s = some m)
    (hn : 10 ∉ s) : ∃ w : VisGroup, w.WF ∧ s = w.text := by
  obtain ⟨f, hf, ts, hs, rfl⟩ := RE.exact_only vis_exact hm hn
  obtain ⟨w, h1, h2, -⟩ := allForms_inv hf (by simp) hs
  exact ⟨w, h1, h2⟩

theorem metarVis_reads : ReadsIfOk visGrammar MetarRegExp.VISIBILITY prevailing := by
  refine ⟨fun w h => ?_, fun s m => metarVis_only⟩
  obtain ⟨m, h1, h2, h3⟩ := metarVis_match w h
  refine ⟨m, h1, fun x hx => ?_⟩
  cases hr : w.raises with
  | some e =>
    rw [h2 e hr] at hx
    cases hx
  | none =>
    obtain ⟨y, hy, hs⟩ := h3 hr
    rw [hy] at hx
    cases hx
    exact hs

theorem tafVis_match (w : VisGroup) (h : w.WF) (hu : ∀ d, w ≠ .metres .undef d) :
    ∃ m, TafRegExp.VISIBILITY.match w.text = some m ∧
      (∀ e, w.raises = some e → prevailing m = .error e) ∧
      (w.raises = none → ∃ x, prevailing m = .ok x ∧ VisSays w x) := by
  obtain ⟨f, hf, hs, hc⟩ := allForms_mem (vs := [List.replicate 4 .digit]) w h
    (by
      rintro v d rfl
      cases v with
      | digits ds => exact ⟨_, by simp, hasShape_digits h.1.2 h.1.1⟩
      | undef => exact absurd rfl (hu d))
  obtain ⟨m, e1, -, e3⟩ := RE.begins_match tafVis_begins hf hs
  rw [VisGroup.pieces_flatten] at e1
  exact ⟨m, e1, prevailing_value w h (hc.apply e3)⟩

theorem tafVis_begin {s : PyStr} {m : Match} (hm : TafRegExp.VISIBILITY.match s = some m) :
    ∃ (w : VisGroup) (rest : PyStr), w.WF ∧ (∀ d, w ≠ .metres .undef d) ∧ s = w.text ++ rest ∧
      (∀ e, w.raises = some e → prevailing m = .error e) ∧
      (w.raises = none → ∃ x, prevailing m = .ok x ∧ VisSays w x) := by
  obtain ⟨f, hf, ts, rest, hs, rfl, hc⟩ := RE.begins_only tafVis_begins hm
  obtain ⟨w, h1, h2, h3, h4⟩ := allForms_inv hf (by simp) hs
  exact ⟨w, rest, h1, h4 (by decide), by rw [h2], prevailing_value w h1 (h3.apply hc)⟩

theorem minVis_match (v : Metres) (dir : Option PyStr) (h : (VisGroup.metres v dir).WF) :
    ∃ m, MetarRegExp.MINIMUM_VISIBILITY.match (VisGroup.metres v dir).text = some m ∧
      (∀ e, (VisGroup.metres v dir).raises = some e → minimumVisibility m = .error e) ∧
      ((VisGroup.metres v dir).raises = none →
        ∃ x, minimumVisibility m = .ok x ∧ VisSays (.metres v dir) x) := by
  obtain ⟨k, hk, hs, -⟩ := Metres.shape v h.1
  obtain ⟨f, hf, h1, h2⟩ := metresForms_mem (extra := []) v dir h hk hs
  obtain ⟨m, e1, -, e3⟩ := RE.exact_match minVis_exact hf h1
  rw [h2] at e3
  rw [VisGroup.pieces_flatten] at e1
  refine ⟨m, e1, minimumVisibility_value v dir h (e3 (.vis, some 0) (by simp)) ?_⟩
  have := e3 (.dir, dir.map fun _ => 1) (by simp)
  rw [this]
  cases dir <;> rfl

theorem minVis_reads : ReadsIfOk minVisGrammar MetarRegExp.MINIMUM_VISIBILITY minimumVisibility := by
  refine ⟨fun w h => ?_, fun s m hm hn => ?_⟩
  · obtain ⟨h, v, d, rfl⟩ := h
    obtain ⟨m, h1, h2, h3⟩ := minVis_match v d h
    refine ⟨m, h1, fun x hx => ?_⟩
    cases hr : (VisGroup.metres v d).raises with
    | some e =>
      rw [h2 e hr] at hx
      cases hx
    | none =>
      obtain ⟨y, hy, hs⟩ := h3 hr
      rw [hy] at hx
      cases hx
      exact hs
  · obtain ⟨f, hf, ts, hs, rfl⟩ := RE.exact_only minVis_exact hm hn
    obtain ⟨k, hk, t, dir, h1, h2, rfl, h3⟩ := metresForms_inv hf hs
    obtain ⟨v, hv, ht, -⟩ := Metres.shape_inv hk h1
    exact ⟨.metres v dir, ⟨⟨hv, h2⟩, v, dir, rfl⟩, by simp [minVisGrammar, VisGroup.text, ht]⟩

end Verif
