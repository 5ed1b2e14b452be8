import Verif.Model.MetarGroups
import Verif.Lemmas.WindForms
import Verif.Lemmas.Clouds
import Verif.Lemmas.Read
import Verif.Lemmas.ReprRead
import Verif.Spec.Wind

/-
Decoding of wind groups.
-/

namespace Verif
open Spec

def WindGroup.pieces (w : WindGroup) : List PyStr :=
  [w.dir.text, flagText w.above py!"P", w.speed.text,
    match w.gust with | none => [] | some (p, _) => py!"G" ++ flagText p py!"P",
    match w.gust with | none => [] | some (_, ds) => ds,
    if w.mps then py!"MPS" else py!"KT"]

theorem WindGroup.pieces_flatten (w : WindGroup) : (WindGroup.pieces w).flatten = w.text := by
  unfold pieces WindGroup.text
  cases w.gust <;> simp [gustText]

theorem dir_shape (n : Nat) (h : n ≤ 36) :
    HasShape dirLo (padNat 3 (10 * n)) ∨ HasShape dirHi (padNat 3 (10 * n)) := by
  have : ∀ n ∈ List.range 37, (hasShapeB dirLo (padNat 3 (10 * n)) ||
      hasShapeB dirHi (padNat 3 (10 * n))) = true := by decide +kernel
  have := this n (List.mem_range.2 (by omega))
  rw [Bool.or_eq_true] at this
  exact this.imp hasShapeB_sound hasShapeB_sound

theorem dir_inv {t : PyStr} (h : HasShape dirLo t ∨ HasShape dirHi t) :
    ∃ n ≤ 36, t = padNat 3 (10 * n) := by
  have : ∃ a b, t = [a, b, 48] ∧ (48 ≤ a ∧ a ≤ 50 ∧ 48 ≤ b ∧ b ≤ 57 ∨ a = 51 ∧ 48 ≤ b ∧ b ≤ 54) := by
    rcases h with h | h
    all_goals
      obtain ⟨a, _, rfl, ha, b, _, rfl, hb, z, _, rfl, hz, hnil⟩ := h
      cases hnil
      rw [CC.mem_one] at hz
      subst hz
      refine ⟨a, b, rfl, ?_⟩
    · rw [CC.mem_range] at ha hb
      omega
    · rw [CC.mem_one] at ha
      rw [CC.mem_range] at hb
      omega
  obtain ⟨a, b, rfl, hab⟩ := this
  have hd : ∀ c : Nat, 48 ≤ c → c ≤ 57 → digitVal c = c - 48 := by
    intro c h1 h2
    have := digitVal_ascii (c - 48) (by omega)
    rwa [show 48 + (c - 48) = c by omega] at this
  have hv : digitsVal [a, b, 48] = 10 * (10 * (a - 48) + (b - 48)) := by
    simp only [digitsVal, List.foldl]
    rw [hd a (by omega) (by omega), hd b (by omega) (by omega), hd 48 (by omega) (by omega)]
    omega
  refine ⟨10 * (a - 48) + (b - 48), by omega, ?_⟩
  rw [← hv]
  refine (padNat_of_ascii (s := [a, b, 48]) ?_ (by simp)).symm
  intro c hc
  rw [mem_ascii]
  simp only [List.mem_cons, List.not_mem_nil, or_false] at hc
  omega

theorem windForms_mem {dirs speeds : List (List CC)} {d s : List CC} (hd : d ∈ dirs)
    (hs : s ∈ speeds) (w : WindGroup) (hg : ∀ p ds, w.gust = some (p, ds) → TwoOrThreeDigits ds)
    (h1 : HasShape d w.dir.text) (h2 : HasShape s w.speed.text) :
    ∃ f ∈ windForms dirs speeds, Shapes f.1 (WindGroup.pieces w) ∧
      f.2 = [(.dir, some 0), (.speed, some 2), (.gust, w.gust.map fun _ => 4), (.units, some 5)] := by
  have hu : HasShape (litShape (if w.mps then py!"MPS" else py!"KT"))
    (if w.mps then py!"MPS" else py!"KT") := hasShape_lit _
  have hu' : litShape (if w.mps then py!"MPS" else py!"KT") ∈ [litShape py!"KT", litShape py!"MPS"] := by
    cases w.mps <;> simp
  have hp : litShape (flagText w.above py!"P") ∈ [[], litShape py!"P"] := by
    cases w.above <;> simp [flagText, litShape]
  unfold windForms
  simp only [List.mem_flatMap, List.mem_map]
  cases hgu : w.gust with
  | none =>
    refine ⟨_, ⟨d, hd, _, hp, s, hs, ([], [], none), by simp, _, hu', rfl⟩, ?_, rfl⟩
    unfold WindGroup.pieces
    rw [hgu]
    exact ⟨h1, hasShape_lit _, h2, rfl, rfl, hu, trivial⟩
  | some x =>
    obtain ⟨p, ds⟩ := x
    obtain ⟨hl, hds⟩ := hg p ds hgu
    refine ⟨_, ⟨d, hd, _, hp, s, hs, (litShape (py!"G" ++ flagText p py!"P"), List.replicate ds.length .digit, some 4), ?_, _, hu', rfl⟩, ?_, rfl⟩
    · cases p <;> rcases hl with hl | hl <;> rw [hl] <;> simp [flagText]
    · unfold WindGroup.pieces
      rw [hgu]
      exact ⟨h1, hasShape_lit _, h2, hasShape_lit _, hasShape_digits hds rfl, hu, trivial⟩

theorem windForms_inv {dirs speeds : List (List CC)} {f : Form} (hf : f ∈ windForms dirs speeds)
    {ts : List PyStr} (hs : Shapes f.1 ts) :
    ∃ d ∈ dirs, ∃ s ∈ speeds, ∃ (t1 : PyStr) (p : Bool) (t2 : PyStr)
      (g : Option (Bool × PyStr)) (u : Bool), HasShape d t1 ∧ HasShape s t2 ∧
      (∀ p ds, g = some (p, ds) → TwoOrThreeDigits ds) ∧
      ts.flatten = t1 ++ flagText p py!"P" ++ t2 ++ gustText g ++ (if u then py!"MPS" else py!"KT") := by
  unfold windForms at hf
  simp only [List.mem_flatMap, List.mem_map] at hf
  obtain ⟨d, hd, p, hp, s, hs', g, hg, u, hu, rfl⟩ := hf
  obtain ⟨t1, _, rfl, h1, hs⟩ := hs.cons_inv
  obtain ⟨t2, _, rfl, h2, hs⟩ := hs.cons_inv
  obtain ⟨t3, _, rfl, h3, hs⟩ := hs.cons_inv
  obtain ⟨t4, _, rfl, h4, hs⟩ := hs.cons_inv
  obtain ⟨t5, _, rfl, h5, hs⟩ := hs.cons_inv
  obtain ⟨t6, _, rfl, h6, hs⟩ := hs.cons_inv
  cases hs.nil_inv
  have ep : ∃ p, t2 = flagText p py!"P" := by
    simp only [List.mem_cons, List.not_mem_nil, or_false] at hp
    rcases hp with rfl | rfl
    · exact ⟨false, h2⟩
    · exact ⟨true, hasShape_lit_iff.1 h2⟩
  have eu : ∃ u : Bool, t6 = if u then py!"MPS" else py!"KT" := by
    simp only [List.mem_cons, List.not_mem_nil, or_false] at hu
    rcases hu with rfl | rfl
    · exact ⟨false, hasShape_lit_iff.1 h6⟩
    · exact ⟨true, hasShape_lit_iff.1 h6⟩
  have eg : ∃ g, t4 ++ t5 = gustText g ∧ ∀ p ds, g = some (p, ds) → TwoOrThreeDigits ds := by
    simp only [List.mem_cons, List.not_mem_nil, or_false] at hg
    have key : ∀ n, n = 2 ∨ n = 3 → HasShape (List.replicate n .digit) t5 → TwoOrThreeDigits t5 := by
      intro n hn h
      obtain ⟨g1, g2⟩ := h.digits
      exact ⟨by rw [g2]; exact hn, g1⟩
    rcases hg with rfl | rfl | rfl | rfl | rfl
    · cases h4; cases h5
      exact ⟨none, rfl, by simp⟩
    all_goals
      have h4 := hasShape_lit_iff.1 h4
      subst h4
    · exact ⟨some (false, t5), rfl, by rintro _ _ ⟨⟩; exact key 2 (by simp) h5⟩
    · exact ⟨some (false, t5), rfl, by rintro _ _ ⟨⟩; exact key 3 (by simp) h5⟩
    · exact ⟨some (true, t5), rfl, by rintro _ _ ⟨⟩; exact key 2 (by simp) h5⟩
    · exact ⟨some (true, t5), rfl, by rintro _ _ ⟨⟩; exact key 3 (by simp) h5⟩
  obtain ⟨p, rfl⟩ := ep
  obtain ⟨u, rfl⟩ := eu
  obtain ⟨g, eg, hg⟩ := eg
  exact ⟨d, hd, s, hs', t1, p, t3, g, u, h1, h3, hg, by simp [← eg]⟩

theorem wind_shapes (w : WindGroup) (h : w.WF) :
    (∃ d ∈ [dirLo, dirHi, litShape py!"///", litShape py!"VRB"], HasShape d w.dir.text) ∧
    (∃ s ∈ [List.replicate 2 CC.digit, List.replicate 3 .digit, litShape py!"//", litShape py!"///"],
      HasShape s w.speed.text) := by
  obtain ⟨h1, h2, -⟩ := h
  constructor
  · cases hd : w.dir with
    | tens n =>
      rw [hd] at h1
      rcases dir_shape n h1 with h | h
      · exact ⟨_, by simp, h⟩
      · exact ⟨dirHi, by simp, h⟩
    | undef => exact ⟨_, by simp, hasShape_lit py!"///"⟩
    | vrb => exact ⟨_, by simp, hasShape_lit py!"VRB"⟩
  · cases hs : w.speed with
    | digits ds =>
      rw [hs] at h2
      obtain ⟨hl, hd⟩ := h2
      refine ⟨List.replicate ds.length .digit, ?_, hasShape_digits hd rfl⟩
      rcases hl with hl | hl <;> rw [hl] <;> simp
    | undef2 => exact ⟨_, by simp, hasShape_lit py!"//"⟩
    | undef3 => exact ⟨_, by simp, hasShape_lit py!"///"⟩

theorem wind_shapes_taf (w : WindGroup) (h : w.WF) (hf : w.Forecast) :
    (∃ d ∈ [dirLo, dirHi, litShape py!"VRB"], HasShape d w.dir.text) ∧
    (∃ s ∈ [List.replicate 2 CC.digit, List.replicate 3 .digit], HasShape s w.speed.text) := by
  obtain ⟨h1, h2, -⟩ := h
  obtain ⟨f1, f2, f3⟩ := hf
  constructor
  · cases hd : w.dir with
    | tens n =>
      rw [hd] at h1
      rcases dir_shape n h1 with h | h
      · exact ⟨_, by simp, h⟩
      · exact ⟨dirHi, by simp, h⟩
    | undef => exact absurd hd f1
    | vrb => exact ⟨_, by simp, hasShape_lit py!"VRB"⟩
  · cases hs : w.speed with
    | digits ds =>
      rw [hs] at h2
      obtain ⟨hl, hd⟩ := h2
      refine ⟨List.replicate ds.length .digit, ?_, hasShape_digits hd rfl⟩
      rcases hl with hl | hl <;> rw [hl] <;> simp
    | undef2 => exact absurd hs f2
    | undef3 => exact absurd hs f3

theorem wind_shapes_inv {t : PyStr} {d : List CC}
    (hd : d ∈ [dirLo, dirHi, litShape py!"///", litShape py!"VRB"]) (h : HasShape d t) :
    ∃ x : WindDir, x.WF ∧ t = x.text ∧ (d ≠ litShape py!"///" → x ≠ .undef) := by
  simp only [List.mem_cons, List.not_mem_nil, or_false] at hd
  rcases hd with rfl | rfl | rfl | rfl
  · obtain ⟨n, hn, rfl⟩ := dir_inv (.inl h)
    exact ⟨.tens n, hn, rfl, by simp⟩
  · obtain ⟨n, hn, rfl⟩ := dir_inv (.inr h)
    exact ⟨.tens n, hn, rfl, by simp⟩
  · exact ⟨.undef, trivial, hasShape_lit_iff.1 h, by simp⟩
  · exact ⟨.vrb, trivial, hasShape_lit_iff.1 h, by simp⟩

theorem speed_shapes_inv {t : PyStr} {s : List CC}
    (hs : s ∈ [List.replicate 2 CC.digit, List.replicate 3 .digit, litShape py!"//", litShape py!"///"])
    (h : HasShape s t) :
    ∃ x : WindSpeed, x.WF ∧ t = x.text ∧
      (s ≠ litShape py!"//" → s ≠ litShape py!"///" → x ≠ .undef2 ∧ x ≠ .undef3) := by
  simp only [List.mem_cons, List.not_mem_nil, or_false] at hs
  rcases hs with rfl | rfl | rfl | rfl
  · obtain ⟨g1, g2⟩ := h.digits
    exact ⟨.digits t, ⟨.inl g2, g1⟩, rfl, by simp⟩
  · obtain ⟨g1, g2⟩ := h.digits
    exact ⟨.digits t, ⟨.inr g2, g1⟩, rfl, by simp⟩
  · exact ⟨.undef2, trivial, hasShape_lit_iff.1 h, by simp⟩
  · exact ⟨.undef3, trivial, hasShape_lit_iff.1 h, by simp⟩

theorem metarWind_only {s : PyStr} {m : Match} (h : MetarRegExp.WIND.match s = some m)
    (hn : 10 ∉ s) : ∃ w : WindGroup, w.WF ∧ s = w.text := by
  obtain ⟨f, hf, ts, hs, rfl⟩ := RE.exact_only metarWind_exact h hn
  obtain ⟨d, hd, s, hs', t1, p, t2, g, u, h1, h2, hg, he⟩ := windForms_inv hf hs
  obtain ⟨x, hx, rfl, -⟩ := wind_shapes_inv hd h1
  obtain ⟨y, hy, rfl, -⟩ := speed_shapes_inv hs' h2
  exact ⟨⟨x, p, y, g, u⟩, ⟨hx, hy, hg⟩, he⟩

theorem tafWind_only {s : PyStr} {m : Match} (h : TafRegExp.WIND.match s = some m)
    (hn : 10 ∉ s) : ∃ w : WindGroup, w.WF ∧ w.Forecast ∧ s = w.text := by
  obtain ⟨f, hf, ts, hs, rfl⟩ := RE.exact_only tafWind_exact h hn
  obtain ⟨d, hd, s, hs', t1, p, t2, g, u, h1, h2, hg, he⟩ := windForms_inv hf hs
  obtain ⟨x, hx, rfl, hx'⟩ := wind_shapes_inv (d := d) (by
    simp only [List.mem_cons, List.not_mem_nil, or_false] at hd ⊢
    rcases hd with rfl | rfl | rfl <;> simp) h1
  obtain ⟨y, hy, rfl, hy'⟩ := speed_shapes_inv (s := s) (by
    simp only [List.mem_cons, List.not_mem_nil, or_false] at hs' ⊢
    rcases hs' with rfl | rfl <;> simp) h2
  refine ⟨⟨x, p, y, g, u⟩, ⟨hx, hy, hg⟩, ⟨hx' ?_, hy' ?_ ?_⟩, he⟩
  · simp only [List.mem_cons, List.not_mem_nil, or_false] at hd
    rcases hd with rfl | rfl | rfl <;> decide
  · simp only [List.mem_cons, List.not_mem_nil, or_false] at hs'
    rcases hs' with rfl | rfl <;> decide
  · simp only [List.mem_cons, List.not_mem_nil, or_false] at hs'
    rcases hs' with rfl | rfl <;> decide

/-! ### Values -/

theorem MPS_TO_KNOT_rel : Rel (1 / 10 ^ 15) Conv.MPS_TO_KNOT.val (1 / (51444444 / 100000000)) := by
  decide +kernel
theorem MPS_TO_KNOT_sgn : Conv.MPS_TO_KNOT.sgn = false := by decide +kernel

theorem Direction.new_tens (n : Nat) (h : n ≤ 36) :
    Direction.new (some (padNat 3 (10 * n))) = .ok ⟨some ⟨((10 * n : Nat) : Rat), false⟩, false⟩ := by
  have hl : (padNat 3 (10 * n)).length = 3 := padNat_length 3 (10 * n) (by omega) (by omega)
  have hne : padNat 3 (10 * n) ≠ py!"//" := by
    intro e; rw [e] at hl; cases hl
  unfold Direction.new
  simp only [hne, if_false]
  rw [if_neg (by omega : ¬ (padNat 3 (10 * n)).length = 2), if_neg (by omega),
    floatOf_digits_exact (padNat_ne _ _) (padNat_digits _ _) (by omega), padNat_val]

theorem digits_ne_lit {ds : PyStr} (h : Digits ds) (hn : ds ≠ []) {c : Nat} {t : PyStr}
    (hc : isDigit c = false) : ds ≠ c :: t := by
  rintro rfl
  have := h c (by simp)
  rw [hc] at this
  cases this

theorem speed_digits {ds : PyStr} (h : TwoOrThreeDigits ds) :
    Verif.speed (some ds) = .ok (some ⟨digitsVal ds, false⟩) := by
  obtain ⟨hl, hd⟩ := h
  have hn : ds ≠ [] := by rintro rfl; simp at hl
  have hne : ds ≠ py!"//" := digits_ne_lit hd hn (by decide)
  unfold Verif.speed
  simp only [hne, if_false]
  rcases hl with hl | hl
  · rw [if_pos hl, if_neg (by simp [hl]), floatOf_digits_exact (by simp)
      (Digits.append (by unfold Digits; decide) hd) (by simp [hl]), digitsVal_append]
    have : digitsVal py!"0" = 0 := by decide
    rw [this, Nat.zero_mul, Nat.zero_add]
  · rw [if_neg (show ¬ ds.length = 2 by omega), if_neg (show ¬ ds.length < 3 by omega),
      floatOf_digits_exact hn hd (by omega)]

theorem mps_digits {ds : PyStr} (h : TwoOrThreeDigits ds) :
    ∃ x : Rat, Verif.speed (some (mps2kt (some ds))) = .ok (some ⟨x, false⟩) ∧
      Rel (1 / 10 ^ 14) x (digitsVal ds / (51444444 / 100000000)) := by
  obtain ⟨hl, hd⟩ := h
  have hn : ds ≠ [] := by rintro rfl; simp at hl
  have h0 : (0 : Rat) ≤ (digitsVal ds : Nat) := Rat.natCast_nonneg
  refine ⟨rnd (digitsVal ds * Conv.MPS_TO_KNOT.val), ?_, ?_⟩
  · unfold mps2kt
    simp only
    rw [floatOf_digits_exact hn hd (by omega)]
    simp only
    rw [F64.mul_pos_val (F64.sgn_false h0) MPS_TO_KNOT_sgn]
    have hv : digitsVal ds ≤ 10000 := by
      have := digitsVal_lt ds
      rcases hl with e | e <;> rw [e] at this <;> omega
    have hw := written_rnd (written_digits hv (c := Conv.MPS_TO_KNOT.val) (by decide +kernel) (by decide +kernel))
    exact speed_repr hw.1 hw.2
  · have h1 := MPS_TO_KNOT_rel.mul_left h0
    have h2 := h1.rnd (by decide +kernel)
    have e : (digitsVal ds : Rat) * (1 / (51444444 / 100000000)) =
      digitsVal ds / (51444444 / 100000000) := by
      rw [Rat.div_def 1, Rat.one_mul, ← Rat.div_def]
    rw [e] at h2
    exact h2.mono (by decide +kernel)

theorem Direction.new_wind (d : WindDir) (h : d.WF) : Direction.new (some d.text) =
    .ok ⟨d.degrees.map whole, d = .vrb⟩ := by
  cases d with
  | tens n => exact Direction.new_tens n h
  | undef => rfl
  | vrb => rfl

theorem speed_value (mps : Bool) (s : WindSpeed) (h : s.WF) :
    ∃ v, Verif.speed (if mps then some (mps2kt (some s.text)) else some s.text) = .ok v ∧
      Knots mps s.number v := by
  cases s with
  | digits ds =>
    cases mps with
    | false => exact ⟨_, speed_digits h, rfl⟩
    | true =>
      obtain ⟨x, h1, h2⟩ := mps_digits h
      exact ⟨_, h1, x, rfl, h2⟩
  | undef2 => cases mps <;> exact ⟨none, rfl, rfl⟩
  | undef3 => cases mps <;> exact ⟨none, rfl, rfl⟩

/-- What the library builds from the captured parts of a wind group. -/
theorem MetarWind.new_value (w : WindGroup) (h : w.WF) {m : Match} (hs : m.string = w.text)
    (h1 : m.group .dir = some w.dir.text) (h2 : m.group .speed = some w.speed.text)
    (h3 : m.group .gust = w.gust.map (·.2))
    (h4 : m.group .units = some (if w.mps then py!"MPS" else py!"KT")) :
    ∃ x, MetarWind.new m = .ok x ∧ x.code = some (shown w.text) ∧
      x.direction = ⟨w.dir.degrees.map whole, w.dir = .vrb⟩ ∧
      Knots w.mps w.speed.number x.speed ∧ Knots w.mps w.gustNumber x.gust := by
  obtain ⟨g1, g2, g3⟩ := h
  obtain ⟨v, hv, kv⟩ := speed_value w.mps w.speed g2
  have hg : ∃ v, Verif.speed (if w.mps then some (mps2kt (w.gust.map (·.2)))
      else w.gust.map (·.2)) = .ok v ∧ Knots w.mps w.gustNumber v := by
    unfold WindGroup.gustNumber
    cases hg : w.gust with
    | none => cases w.mps <;> exact ⟨Option.none, rfl, rfl⟩
    | some x => exact speed_value w.mps (.digits x.2) (g3 x.1 x.2 hg)
  obtain ⟨v', hv', kv'⟩ := hg
  have hm : (decide (m.group .units = some py!"MPS") : Bool) = w.mps := by
    rw [h4]; cases w.mps <;> rfl
  refine ⟨⟨groupCode (some m.string), ⟨w.dir.degrees.map whole, w.dir = .vrb⟩, v, v'⟩,
    ?_, by rw [groupCode_some, hs], rfl, kv, kv'⟩
  unfold MetarWind.new
  simp only [hm, h1, h2, h3]
  rw [Direction.new_wind _ g1, ok_bind, hv, ok_bind, hv', ok_bind]
  rfl

theorem wind_accept {r : RE} {dirs speeds : List (List CC)} (hx : r.exact (windForms dirs speeds) = true)
    (w : WindGroup) (h : w.WF) (h1 : ∃ d ∈ dirs, HasShape d w.dir.text)
    (h2 : ∃ s ∈ speeds, HasShape s w.speed.text) :
    ∃ m x, r.match w.text = some m ∧ MetarWind.new m = .ok x ∧ WindSays w x := by
  obtain ⟨d, hd, h1⟩ := h1
  obtain ⟨s, hs, h2⟩ := h2
  obtain ⟨f, hf, hsh, hc⟩ := windForms_mem hd hs w h.2.2 h1 h2
  obtain ⟨m, e1, e2, e3⟩ := RE.exact_match hx hf hsh
  rw [hc] at e3
  rw [WindGroup.pieces_flatten] at e1 e2
  obtain ⟨x, hx, hv⟩ := MetarWind.new_value w h (m := m) e2
    (e3 (.dir, some 0) (by simp)) (e3 (.speed, some 2) (by simp))
    (by
      have := e3 (.gust, w.gust.map fun _ => 4) (by simp)
      rw [this]
      unfold WindGroup.pieces
      cases w.gust <;> rfl)
    (e3 (.units, some 5) (by simp))
  exact ⟨m, x, e1, hx, hv⟩

theorem metarWind_accept (w : WindGroup) (h : w.WF) :
    ∃ m x, MetarRegExp.WIND.match w.text = some m ∧ MetarWind.new m = .ok x ∧ WindSays w x :=
  wind_accept metarWind_exact w h (wind_shapes w h).1 (wind_shapes w h).2

theorem tafWind_accept (w : WindGroup) (h : w.WF) (hf : w.Forecast) :
    ∃ m x, TafRegExp.WIND.match w.text = some m ∧ MetarWind.new m = .ok x ∧ WindSays w x :=
  wind_accept tafWind_exact w h (wind_shapes_taf w h hf).1 (wind_shapes_taf w h hf).2

/-! ### Wind variation -/

def variationForms : List Form :=
  [[CC.one 48, .set [(49, 57)], CC.one 48], [.set [(49, 49), (50, 50)], .set [(48, 57)], CC.one 48],
    [CC.one 51, .set [(48, 54)], CC.one 48]].flatMap fun a =>
  [[CC.one 48, .set [(49, 57)], CC.one 48], [.set [(49, 49), (50, 50)], .set [(48, 57)], CC.one 48],
    [CC.one 51, .set [(48, 54)], CC.one 48]].map fun b =>
    ([a, litShape py!"V", b], [(.from_, some 0), (.to, some 2)])

theorem variation_exact : MetarRegExp.WIND_VARIATION.exact variationForms = true := by decide +kernel

theorem var_shape (n : Nat) (h1 : 1 ≤ n) (h : n ≤ 36) :
    ∃ ks ∈ [[CC.one 48, .set [(49, 57)], CC.one 48], [.set [(49, 49), (50, 50)], .set [(48, 57)], CC.one 48],
      [CC.one 51, .set [(48, 54)], CC.one 48]], HasShape ks (padNat 3 (10 * n)) := by
  have : ∀ n ∈ List.range 37, n = 0 ∨ ([[CC.one 48, .set [(49, 57)], CC.one 48],
      [.set [(49, 49), (50, 50)], .set [(48, 57)], CC.one 48],
      [CC.one 51, .set [(48, 54)], CC.one 48]].any fun ks => hasShapeB ks (padNat 3 (10 * n))) = true := by
    decide +kernel
  rcases this n (List.mem_range.2 (by omega)) with h0 | h0
  · omega
  · obtain ⟨ks, hk, hs⟩ := List.any_eq_true.1 h0
    exact ⟨ks, hk, hasShapeB_sound hs⟩

theorem var_inv {t : PyStr} {ks : List CC} (hk : ks ∈ [[CC.one 48, .set [(49, 57)], CC.one 48],
    [.set [(49, 49), (50, 50)], .set [(48, 57)], CC.one 48], [CC.one 51, .set [(48, 54)], CC.one 48]])
    (h : HasShape ks t) : ∃ n, 1 ≤ n ∧ n ≤ 36 ∧ t = padNat 3 (10 * n) := by
  have hsub : HasShape dirLo t ∨ HasShape dirHi t := by
    simp only [List.mem_cons, List.not_mem_nil, or_false] at hk
    rcases hk with rfl | rfl | rfl
    · exact .inl (subShape_sound (by decide +kernel) h)
    · exact .inl (subShape_sound (by decide +kernel) h)
    · exact .inr (subShape_sound (by decide +kernel) h)
  obtain ⟨n, hn, rfl⟩ := dir_inv hsub
  refine ⟨n, ?_, hn, rfl⟩
  rcases Nat.eq_zero_or_pos n with rfl | h0
  · exfalso
    have hz : padNat 3 (10 * 0) = [48, 48, 48] := by decide
    rw [hz] at h
    simp only [List.mem_cons, List.not_mem_nil, or_false] at hk
    rcases hk with rfl | rfl | rfl
    · obtain ⟨_, _, e, -, _, _, rfl, hb, -⟩ := h
      cases e
      rw [CC.mem_range] at hb; omega
    · obtain ⟨_, _, e, hb, -⟩ := h
      cases e
      revert hb; decide
    · obtain ⟨_, _, e, hb, -⟩ := h
      cases e
      rw [CC.mem_one] at hb; omega
  · exact h0

theorem variation_reads : Reads variationGrammar MetarRegExp.WIND_VARIATION WindVariation.new := by
  constructor
  · rintro w ⟨h1, h2, h3, h4⟩
    obtain ⟨a, ha, sa⟩ := var_shape _ h1 h2
    obtain ⟨b, hb, sb⟩ := var_shape _ h3 h4
    obtain ⟨m, e1, e2, e3⟩ := RE.exact_match variation_exact
      (f := ([a, litShape py!"V", b], [(.from_, some 0), (.to, some 2)]))
      (by
        unfold variationForms
        simp only [List.mem_flatMap, List.mem_map]
        exact ⟨a, ha, b, hb, rfl⟩)
      (ts := [padNat 3 (10 * w.from_), py!"V", padNat 3 (10 * w.to)])
      ⟨sa, hasShape_lit _, sb, trivial⟩
    have ht : [padNat 3 (10 * w.from_), py!"V", padNat 3 (10 * w.to)].flatten = w.text := by
      simp [VariationGroup.text]
    rw [ht] at e1 e2
    have g1 : m.group .from_ = some (padNat 3 (10 * w.from_)) := e3 (.from_, some 0) (by simp)
    have g2 : m.group .to = some (padNat 3 (10 * w.to)) := e3 (.to, some 2) (by simp)
    refine ⟨m, ⟨groupCode (some m.string), _, _⟩, e1, ?_, ?_, rfl, rfl⟩
    · unfold WindVariation.new
      rw [g1, g2, Direction.new_tens _ h2, ok_bind, Direction.new_tens _ h4, ok_bind]
      rfl
    · simp only
      rw [groupCode_some, e2]
  · intro s m hm hn
    obtain ⟨f, hf, ts, hs, rfl⟩ := RE.exact_only variation_exact hm hn
    unfold variationForms at hf
    simp only [List.mem_flatMap, List.mem_map] at hf
    obtain ⟨a, ha, b, hb, rfl⟩ := hf
    obtain ⟨t1, _, rfl, h1, hs⟩ := hs.cons_inv
    obtain ⟨t2, _, rfl, h2, hs⟩ := hs.cons_inv
    obtain ⟨t3, _, rfl, h3, hs⟩ := hs.cons_inv
    cases hs.nil_inv
    obtain ⟨n, n1, n2, rfl⟩ := var_inv ha h1
    obtain ⟨k, k1, k2, rfl⟩ := var_inv hb h3
    have h2 := hasShape_lit_iff.1 h2
    subst h2
    exact ⟨⟨n, k⟩, ⟨n1, n2, k1, k2⟩, by simp [variationGrammar, VariationGroup.text]⟩

theorem metarWind_reads : Reads windGrammar MetarRegExp.WIND MetarWind.new :=
  ⟨metarWind_accept, fun _ _ hm hn => metarWind_only hm hn⟩

theorem tafWind_reads : Reads tafWindGrammar TafRegExp.WIND MetarWind.new :=
  ⟨fun w hw => tafWind_accept w hw.1 hw.2, fun _ _ hm hn => by
    obtain ⟨w, h1, h2, h3⟩ := tafWind_only hm hn
    exact ⟨w, ⟨h1, h2⟩, h3⟩⟩

end Verif
