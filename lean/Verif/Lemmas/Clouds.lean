import Verif.Model.Base
import Verif.Model.Regexps
import Verif.Lemmas.Digits
import Verif.Lemmas.Within
import Verif.Lemmas.Forms
import Verif.Lemmas.Str
import Verif.Lemmas.Except
import Verif.Spec.Clouds

/-
Decoding of cloud groups.
-/

namespace Verif
open Spec

theorem groupCode_of_avoids {s : PyStr} (h : 95 ∉ s) : groupCode (some s) = some s := by
  unfold groupCode
  simp only
  rw [show (py!"_" : PyStr) = [95] from rfl, replace_absent _ _ _ h]

theorem FT_TO_M_within : Within (1 / 10 ^ 16) Conv.FT_TO_M.val (3048 / 10000) := by decide +kernel
theorem M_TO_FT_within : Within (1 / 10 ^ 15) Conv.M_TO_FT.val (10000 / 3048) := by decide +kernel
theorem FT_TO_M_sgn : Conv.FT_TO_M.sgn = false := by decide +kernel
theorem M_TO_FT_sgn : Conv.M_TO_FT.sgn = false := by decide +kernel

theorem F64.mul_pos_val {a b : F64} (ha : a.sgn = false) (hb : b.sgn = false) :
    a.mul b = ⟨rnd (a.val * b.val), false⟩ := by
  simp [F64.mul, F64.mk', ha, hb]

theorem F64.sgn_false {q : Rat} (h : 0 ≤ q) : (⟨q, false⟩ : F64).sgn = false := by
  simp only [F64.sgn, Bool.or_false, decide_eq_false_iff_not]
  grind

/-- The height in metres the library stores for `h` hundreds of feet. -/
theorem layer_height (h : Nat) (hh : h < 1000) :
    ∃ x f : Rat,
      floatOf (fmtF 10 ((⟨((h * 100 : Nat) : Rat), false⟩ : F64).mul Conv.FT_TO_M)) =
        some ⟨x, false⟩ ∧
      (⟨x, false⟩ : F64).mul Conv.M_TO_FT = ⟨f, false⟩ ∧
      Within (1 / 10 ^ 9) x (3048 / 100 * h) ∧ Within (1 / 10 ^ 8) f (100 * h) ∧ 0 ≤ x := by
  have hr : ((h * 100 : Nat) : Rat) = 100 * h := by
    rw [Rat.natCast_mul]
    have : ((100 : Nat) : Rat) = 100 := rfl
    rw [this]; grind
  have h0 : (0 : Rat) ≤ h := Rat.natCast_nonneg
  have h1 : (h : Rat) ≤ 999 := by
    have := (Rat.natCast_le_natCast).2 (show h ≤ 999 by omega)
    simpa using this
  generalize hhr : (h : Rat) = r at *
  have hs : (⟨100 * r, false⟩ : F64).sgn = false := F64.sgn_false (by grind)
  rw [hr, F64.mul_pos_val hs FT_TO_M_sgn]
  simp only
  have w1 := (FT_TO_M_within.mul_left (100 * r) (by grind))
  have hF0 : 0 ≤ Conv.FT_TO_M.val := by decide +kernel
  generalize Conv.FT_TO_M.val = F at *
  obtain ⟨w1a, w1b⟩ := w1
  have p16 : (1 : Rat) / 10 ^ 16 = 1 / 10000000000000000 := by decide +kernel
  have p15 : (1 : Rat) / 10 ^ 15 = 1 / 1000000000000000 := by decide +kernel
  have p9 : (1 : Rat) / 10 ^ 9 = 1 / 1000000000 := by decide +kernel
  have p8 : (1 : Rat) / 10 ^ 8 = 1 / 100000000 := by decide +kernel
  have p10 : (1 : Rat) / (2 * 10 ^ 10) = 1 / 20000000000 := by decide +kernel
  have pu : ulp ≤ 1 / 9000000000000000 := by decide +kernel
  rw [p16] at w1a w1b
  -- the product
  have b1 : 0 ≤ 100 * r * F := Rat.mul_nonneg (by grind) hF0
  have b2 : 100 * r * F ≤ 30451 := by grind
  have w2 := rnd_within b1 b2
  generalize hA : rnd (100 * r * F) = A at *
  have hA0 : 0 ≤ A := by rw [← hA]; exact rnd_nonneg _ b1
  -- the text
  rw [floatOf_fmtF 10 (by omega) ⟨A, false⟩ (F64.sgn_false hA0)]
  have w3 := fixed_within 10 A hA0
  simp only
  generalize hB : (mkRat (rhe (A.num.natAbs * 10 ^ 10) A.den : Nat) (10 ^ 10) : Rat) = B at *
  have hB0 : 0 ≤ B := by rw [← hB]; exact mkRat_nat_nonneg _ _
  obtain ⟨w2a, w2b⟩ := w2
  rw [p10] at w3
  obtain ⟨w3a, w3b⟩ := w3
  have b3 : B ≤ 30452 := by grind
  have w4 := rnd_within hB0 b3
  generalize hC : rnd B = C at *
  have hC0 : 0 ≤ C := by rw [← hC]; exact rnd_nonneg _ hB0
  obtain ⟨w4a, w4b⟩ := w4
  have wC : Within (1 / 14000000000) C (3048 / 100 * r) := by constructor <;> grind
  -- back to feet
  have w5 := M_TO_FT_within.mul_left C hC0
  have hG0 : 0 ≤ Conv.M_TO_FT.val := by decide +kernel
  have hGs := M_TO_FT_sgn
  have wG := wC.mul_right (10000 / 3048) (by decide +kernel)
  have hm := F64.mul_pos_val (F64.sgn_false hC0) M_TO_FT_sgn
  simp only at hm
  generalize Conv.M_TO_FT.val = G at *
  obtain ⟨w5a, w5b⟩ := w5
  obtain ⟨wGa, wGb⟩ := wG
  have wCC := wC
  obtain ⟨wCa, wCb⟩ := wC
  rw [p15] at w5a w5b
  have hC1 : C ≤ 30452 := by grind
  have b5 : 0 ≤ C * G := Rat.mul_nonneg hC0 hG0
  have b6 : C * G ≤ 99910 := by grind
  have w6 := rnd_within b5 b6
  refine ⟨C, rnd (C * G), ?_, hm, ?_, ?_, hC0⟩
  · simp [F64.mk', hC]
  · rw [p9]; exact wCC.mono (by decide +kernel)
  · rw [p8]
    obtain ⟨w6a, w6b⟩ := w6
    constructor <;> grind

/-! ### The pattern -/

def baseShape : Base → List CC
  | .absent => [] | .undef => litShape py!"///" | .hundreds _ => List.replicate 3 .digit

def baseForms : List Base := [.absent, .undef, .hundreds []]

/-- Which piece is captured by which group; `cover///` without height reads `///` as the height. -/
def cloudCaps (b : Base) (k : Kind) : List (Cap × Option Nat) :=
  match b, k with
  | .absent, .undef => [(.cover, some 0), (.height, some 2), (.type, none)]
  | .absent, .absent => [(.cover, some 0), (.height, none), (.type, none)]
  | .absent, _ => [(.cover, some 0), (.height, none), (.type, some 2)]
  | _, .absent => [(.cover, some 0), (.height, some 1), (.type, none)]
  | _, _ => [(.cover, some 0), (.height, some 1), (.type, some 2)]

theorem cloud_chk : ∀ c ∈ Cover.all, ∀ b ∈ baseForms, ∀ k ∈ Kind.all,
    MetarRegExp.CLOUD.chk [litShape c.text, baseShape b, litShape k.text] (cloudCaps b k) = true ∧
      avoids 95 [litShape c.text, baseShape b, litShape k.text].flatten = true := by
  decide +kernel

theorem Cover.mem_all (c : Cover) : c ∈ Cover.all := by cases c <;> decide
theorem Kind.mem_all (k : Kind) : k ∈ Kind.all := by cases k <;> decide

theorem layer_shapes (l : Layer) (h : l.WF) :
    Shapes [litShape l.cover.text, baseShape l.base, litShape l.kind.text]
      [l.cover.text, l.base.text, l.kind.text] := by
  refine ⟨hasShape_lit _, ?_, hasShape_lit _, trivial⟩
  unfold Layer.WF at h
  cases hb : l.base with
  | absent => exact rfl
  | undef => exact hasShape_lit _
  | hundreds ds =>
    rw [hb] at h
    have := hasShape_of_all (k := .digit) h.2
    rwa [h.1] at this

/-- The cloud object the library builds for a layer. -/
def layerCloud (l : Layer) : Cloud :=
  ⟨some l.text, l.cover.words, some l.cover.eighths, l.kind.words,
    match l.base.hundredsOfFeet with
    | none => none
    | some h => floatOf (fmtF 10 ((⟨((h * 100 : Nat) : Rat), false⟩ : F64).mul Conv.FT_TO_M))⟩

theorem cover_words (c : Cover) : dget skyCover c.text = c.words := by cases c <;> rfl
theorem cover_eighths (c : Cover) : setOktas c.text = c.eighths := by cases c <;> rfl

theorem fmtF_mem_dot (N : Nat) (x : F64) : 46 ∈ fmtF N x := by
  unfold fmtF
  simp

theorem layer_decode (l : Layer) (h : l.WF) :
    ∃ m, MetarRegExp.CLOUD.match l.text = some m ∧ m.string = l.text ∧
      Cloud.fromMetar m = .ok (layerCloud l) := by
  have hb : baseShape l.base ∈ baseForms.map baseShape ∧
      ∃ b ∈ baseForms, baseShape l.base = baseShape b ∧ cloudCaps l.base = cloudCaps b := by
    cases hb : l.base with
    | absent => exact ⟨by decide, .absent, by decide, rfl, rfl⟩
    | undef => exact ⟨by decide, .undef, by decide, rfl, rfl⟩
    | hundreds ds =>
      refine ⟨by simp [baseForms, baseShape], .hundreds [], by decide, rfl, ?_⟩
      funext k; cases k <;> rfl
  obtain ⟨_, b, hbm, e1, e2⟩ := hb
  obtain ⟨hc, ha⟩ := cloud_chk l.cover (Cover.mem_all _) b hbm l.kind (Kind.mem_all _)
  rw [← e1] at hc ha
  rw [← e2] at hc
  obtain ⟨m, hm, hs, hg⟩ := RE.chk_sound hc (layer_shapes l h)
  have ht : [l.cover.text, l.base.text, l.kind.text].flatten = l.text := by
    simp [Layer.text]
  have hav := avoids_sound ha (layer_shapes l h).flatten
  rw [ht] at hm hs hav
  refine ⟨m, hm, hs, ?_⟩
  have hcode : groupCode (some m.string) = some l.text := by
    rw [hs]; exact groupCode_of_avoids hav
  have hcov : m.group .cover = some l.cover.text := by
    have : (Cap.cover, some 0) ∈ cloudCaps l.base l.kind := by
      cases l.base <;> cases l.kind <;> simp [cloudCaps]
    simpa using hg _ this
  have hty : dgetO cloudTypes (m.group .type) = l.kind.words := by
    cases hbase : l.base <;> cases hk : l.kind <;> rw [hbase, hk] at hg <;>
      simp [cloudCaps] at hg <;> rw [hg.2.2] <;> rfl
  unfold Cloud.fromMetar
  rw [hcode, hcov, hty]
  simp only [Option.getD_some, cover_words, cover_eighths]
  have und : distance (some py!"////") = none := by decide
  cases hbase : l.base with
  | absent =>
    have hh : m.group .height = none ∨ m.group .height = some py!"///" := by
      cases hk : l.kind <;> rw [hbase, hk] at hg <;> simp [cloudCaps, Kind.text] at hg <;>
        simp [hg]
    rcases hh with hh | hh <;>
      simp [hh, layerCloud, hbase, Base.hundredsOfFeet, und, pure, Except.pure, bind, Except.bind]
  | undef =>
    have hh : m.group .height = some py!"///" := by
      cases hk : l.kind <;> rw [hbase, hk] at hg <;>
        simpa [Base.text] using hg (.height, some 1) (by simp [cloudCaps])
    simp [hh, layerCloud, hbase, Base.hundredsOfFeet, und, pure, Except.pure, bind, Except.bind]
  | hundreds ds =>
    have hh : m.group .height = some ds := by
      cases hk : l.kind <;> rw [hbase, hk] at hg <;>
        simpa [Base.text] using hg (.height, some 1) (by simp [cloudCaps])
    have hwf := h
    unfold Layer.WF at hwf
    rw [hbase] at hwf
    obtain ⟨hlen, hds⟩ := hwf
    have hne : ds ≠ py!"///" := by
      rintro rfl
      exact absurd (hds 47 (by simp)) (by decide)
    have hf : floatOf (ds ++ py!"00") = some ⟨((digitsVal ds * 100 : Nat) : Rat), false⟩ := by
      rw [floatOf_digits_exact (by simp) (Digits.append hds (by unfold Digits; decide)) (by simp [hlen])]
      rw [digitsVal_append]
      rfl
    have hd : ∀ x : F64, distance (some (fmtF 10 x)) = floatOf (fmtF 10 x) := by
      intro x
      unfold distance
      simp only
      rw [if_neg]
      intro hx
      have := fmtF_mem_dot 10 x
      rw [hx] at this
      exact absurd this (by decide)
    simp [hh, layerCloud, hbase, Base.hundredsOfFeet, hne, pyFloat, hf, hd, pure, Except.pure, bind,
      Except.bind]

/-- What the decoded heights are. -/
theorem layerCloud_height (l : Layer) (h : l.WF) :
    (l.base.hundredsOfFeet = none → (layerCloud l).height = none ∧
      (layerCloud l).heightInFeet = none) ∧
    (∀ k, l.base.hundredsOfFeet = some k → k < 1000 ∧
      ∃ x f : Rat, (layerCloud l).height = some ⟨x, false⟩ ∧
        (layerCloud l).heightInFeet = some ⟨f, false⟩ ∧
        Within (1 / 10 ^ 9) x (3048 / 100 * k) ∧ Within (1 / 10 ^ 8) f (100 * k) ∧ 0 ≤ x ∧
        floatOf (fmtF 10 ((⟨((k * 100 : Nat) : Rat), false⟩ : F64).mul Conv.FT_TO_M)) =
          some ⟨x, false⟩ ∧ (⟨x, false⟩ : F64).mul Conv.M_TO_FT = ⟨f, false⟩) := by
  constructor
  · intro hb
    simp [layerCloud, hb, Cloud.heightInFeet, inFeet, converted]
  · intro k hk
    have hlt : k < 1000 := by
      unfold Layer.WF at h
      cases hb : l.base with
      | absent => rw [hb] at hk; cases hk
      | undef => rw [hb] at hk; cases hk
      | hundreds ds =>
        rw [hb] at hk h
        cases hk
        have := digitsVal_lt ds
        rw [h.1] at this
        omega
    obtain ⟨x, f, h1, h2, h3, h4, h5⟩ := layer_height k hlt
    refine ⟨hlt, x, f, ?_, ?_, h3, h4, h5, h1, h2⟩
    · simp only [layerCloud, hk, h1]
    · simp only [layerCloud, hk, h1, h2, Cloud.heightInFeet, inFeet, converted, Option.map_some]

/-! ### Only layers are accepted -/

theorem cloud_paths : ∀ x ∈ MetarRegExp.CLOUD.paths0, endsWithEos x.1 = true ∧
    ∀ ks ∈ expand (pathCls x.1), ∃ c ∈ Cover.all, ∃ b ∈ baseForms, ∃ k ∈ Kind.all,
      ks = litShape c.text ++ (baseShape b ++ litShape k.text) := by
  decide +kernel

theorem cloud_bounded : ((MetarRegExp.CLOUD.paths (0, [])).isSome &&
    MetarRegExp.CLOUD.paths0.all fun x => endsWithEos x.1 && capsInside x) = true := by
  decide +kernel

theorem cloud_only {s : PyStr} {m : Match} (h : MetarRegExp.CLOUD.match s = some m) (hn : 10 ∉ s) :
    ∃ l : Layer, l.WF ∧ s = l.text := by
  obtain ⟨x, hx, _, _, hsh, _⟩ := RE.match_whole cloud_bounded h hn
  obtain ⟨ks, hks, hsh⟩ := expand_sound hsh
  obtain ⟨c, _, b, hb, k, _, rfl⟩ := (cloud_paths x hx).2 ks hks
  obtain ⟨t1, t23, rfl, h1, h23⟩ := hsh.append_inv
  obtain ⟨t2, t3, rfl, h2, h3⟩ := h23.append_inv
  rw [hasShape_lit_iff] at h1 h3
  subst h1 h3
  simp only [baseForms, List.mem_cons, List.not_mem_nil, or_false] at hb
  rcases hb with rfl | rfl | rfl
  · have : t2 = [] := h2
    subst this
    exact ⟨⟨c, .absent, k⟩, trivial, rfl⟩
  · have : t2 = py!"///" := hasShape_lit_iff.1 h2
    subst this
    exact ⟨⟨c, .undef, k⟩, trivial, rfl⟩
  · obtain ⟨g1, g2⟩ := HasShape.digits h2
    exact ⟨⟨c, .hundreds t2, k⟩, ⟨g2, g1⟩, rfl⟩

end Verif
