import Verif.Spec.Grammar
import Verif.Lemmas.Clouds
import Verif.Model.Forecast

/-
C27-C32: cloud groups, ceiling, flight rules, CAVOK analysis.
-/

namespace Verif.Props
open Verif.Spec

/-- The library accepts the text of the layer as a cloud group and decodes it to `c`. -/
def DecodesTo (l : Layer) (c : Cloud) : Prop :=
  ∃ m, MetarRegExp.CLOUD.match l.text = some m ∧ Cloud.fromMetar m = .ok c

/-- The library decodes the layers to the clouds, one by one. -/
def AllDecode : List Layer → List Cloud → Prop
  | [], [] => True
  | l :: ls, c :: cs => DecodesTo l c ∧ AllDecode ls cs
  | _, _ => False

/-! ### C27: decoding -/

theorem decodesTo_iff {l : Layer} (h : l.WF) {c : Cloud} : DecodesTo l c ↔ c = layerCloud l := by
  obtain ⟨m, h1, _, h3⟩ := layer_decode l h
  constructor
  · rintro ⟨m', e1, e2⟩
    rw [h1] at e1; cases e1
    rw [h3] at e2; cases e2; rfl
  · rintro rfl; exact ⟨m, h1, h3⟩

/-- C27. Every cloud group (any cover, any three digits or `///` or nothing as height, any type) is
accepted and decoded: cover and oktas are those of the code, the type is that of the suffix, the
height in metres is within 1e-9 of 30.48 times the stated hundreds of feet and the height in feet
within 1e-8 of the stated one; an undefined height gives `None`. -/
theorem C27_cloud_layer (l : Layer) (h : l.WF) :
    ∃ c, DecodesTo l c ∧ c.code = some l.text ∧ c.cover = l.cover.words ∧
      c.oktas = some l.cover.eighths ∧ c.type = l.kind.words ∧
      (l.base.hundredsOfFeet = none → c.height = none ∧ c.heightInFeet = none) ∧
      (∀ k, l.base.hundredsOfFeet = some k → ∃ x f : Rat, c.height = some ⟨x, false⟩ ∧
        c.heightInFeet = some ⟨f, false⟩ ∧ Within (1 / 10 ^ 9) x (3048 / 100 * k) ∧
        Within (1 / 10 ^ 8) f (100 * k)) ∧
      (l.base.hundredsOfFeet = some 0 → c.height = some (whole 0)) := by
  refine ⟨layerCloud l, (decodesTo_iff h).2 rfl, rfl, rfl, rfl, rfl, (layerCloud_height l h).1, ?_, ?_⟩
  rotate_left
  · intro h0
    simp only [layerCloud, h0]
    decide +kernel
  intro k hk
  obtain ⟨_, x, f, h1, h2, h3, h4, _, _⟩ := (layerCloud_height l h).2 k hk
  exact ⟨x, f, h1, h2, h3, h4⟩

/-- C27. The cloud pattern accepts nothing else (apart from a newline, which a group of a report
never contains), so decoding a cloud group never raises. -/
theorem C27_only_layers (s : PyStr) (m : Match) (h : MetarRegExp.CLOUD.match s = some m)
    (hn : 10 ∉ s) : ∃ (l : Layer) (c : Cloud), l.WF ∧ s = l.text ∧ Cloud.fromMetar m = .ok c := by
  obtain ⟨l, hl, rfl⟩ := cloud_only h hn
  obtain ⟨m', h1, _, h3⟩ := layer_decode l hl
  rw [h1] at h; cases h
  exact ⟨l, _, hl, rfl, h3⟩

/-- A layer for the theorems above. -/
example : (Layer.mk .bkn (.hundreds py!"012") .cb).WF ∧
    (Layer.mk .bkn (.hundreds py!"012") .cb).text = py!"BKN012CB" ∧
    (Layer.mk .bkn (.hundreds py!"012") .cb).base.hundredsOfFeet = some 12 := by
  refine ⟨⟨rfl, ?_⟩, rfl, by decide⟩; decide

/-! ### C28: ceiling -/

/-- The layer covers more than half of the sky: BKN or OVC. -/
def MostlyCovered (l : Layer) : Prop := l.cover = .bkn ∨ l.cover = .ovc

instance (l : Layer) : Decidable (MostlyCovered l) := inferInstanceAs (Decidable (_ ∨ _))

theorem AllDecode.eq_map {ls : List Layer} {cs : List Cloud} (hw : ∀ l ∈ ls, l.WF)
    (h : AllDecode ls cs) : cs = ls.map layerCloud := by
  induction ls generalizing cs with
  | nil => cases cs with
    | nil => rfl
    | cons c cs => exact h.elim
  | cons l ls ih =>
    cases cs with
    | nil => exact h.elim
    | cons c cs =>
      rw [List.map_cons, ih (fun l hl => hw l (List.mem_cons_of_mem _ hl)) h.2,
        (decodesTo_iff (hw l List.mem_cons_self)).1 h.1]

theorem oktas_mostly (l : Layer) :
    ((layerCloud l).oktas = some py!"5-7" ∨ (layerCloud l).oktas = some py!"8") ↔
      MostlyCovered l := by
  obtain ⟨c, b, k⟩ := l
  cases c <;> simp [layerCloud, Cover.eighths, MostlyCovered]

theorem lit_val (n : Nat) (h : n < 2 ^ 53) : (F64.lit (n : Rat)).val = n := by
  simp [F64.lit, F64.mk', rnd_natCast n h]

theorem feet_15 {k : Nat} (hk : k = 15) {x f : Rat}
    (h1 : floatOf (fmtF 10 ((⟨((k * 100 : Nat) : Rat), false⟩ : F64).mul Conv.FT_TO_M)) =
        some ⟨x, false⟩) (h2 : (⟨x, false⟩ : F64).mul Conv.M_TO_FT = ⟨f, false⟩) : f ≤ 1500 := by
  subst hk
  have : (floatOf (fmtF 10 ((⟨((15 * 100 : Nat) : Rat), false⟩ : F64).mul Conv.FT_TO_M))).all
      (fun y => decide ((y.mul Conv.M_TO_FT).val ≤ 1500)) = true := by decide +kernel
  rw [h1] at this
  simp only [Option.all_some, h2, decide_eq_true_eq] at this
  exact this

theorem feet_50 {k : Nat} (hk : k = 50) {x f : Rat}
    (h1 : floatOf (fmtF 10 ((⟨((k * 100 : Nat) : Rat), false⟩ : F64).mul Conv.FT_TO_M)) =
        some ⟨x, false⟩) (h2 : (⟨x, false⟩ : F64).mul Conv.M_TO_FT = ⟨f, false⟩) :
    (F64.lit 4999.99999999).val ≤ f := by
  subst hk
  have : (floatOf (fmtF 10 ((⟨((50 * 100 : Nat) : Rat), false⟩ : F64).mul Conv.FT_TO_M))).all
      (fun y => decide ((F64.lit 4999.99999999).val ≤ (y.mul Conv.M_TO_FT).val)) = true := by
    decide +kernel
  rw [h1] at this
  simp only [Option.all_some, h2, decide_eq_true_eq] at this
  exact this

/-- The comparisons the library makes with the height of a decoded layer, in hundreds of feet. -/
theorem height_tests (l : Layer) (h : l.WF) (k : Nat) (hk : l.base.hundredsOfFeet = some k) :
    ∃ x f : F64, (layerCloud l).height = some x ∧ (layerCloud l).heightInFeet = some f ∧
      (f.val ≤ 1500 ↔ k ≤ 15) ∧ (f.val < (F64.lit 4999.99999999).val ↔ k < 50) ∧
      (x.val < 60 ↔ k < 2) ∧ (x.val < 150 ↔ k < 5) ∧ (x.val < 300 ↔ k < 10) ∧
      (x.val < 900 ↔ k < 30) ∧ x.val < 40000 := by
  obtain ⟨hlt, x, f, e1, e2, ⟨a1, a2⟩, ⟨b1, b2⟩, h0, q1, q2⟩ := (layerCloud_height l h).2 k hk
  have p9 : (1 : Rat) / 10 ^ 9 = 1 / 1000000000 := by decide +kernel
  have p8 : (1 : Rat) / 10 ^ 8 = 1 / 100000000 := by decide +kernel
  rw [p9] at a1 a2
  rw [p8] at b1 b2
  have up : ∀ n : Nat, k ≤ n → (k : Rat) ≤ n := fun n hn => Rat.natCast_le_natCast.2 hn
  have lo : ∀ n : Nat, n ≤ k → (n : Rat) ≤ k := fun n hn => Rat.natCast_le_natCast.2 hn
  have num : ((16 : Nat) : Rat) = 16 ∧ ((14 : Nat) : Rat) = 14 ∧ ((49 : Nat) : Rat) = 49 ∧
      ((51 : Nat) : Rat) = 51 ∧ ((1 : Nat) : Rat) = 1 ∧ ((2 : Nat) : Rat) = 2 ∧
      ((4 : Nat) : Rat) = 4 ∧ ((5 : Nat) : Rat) = 5 ∧ ((9 : Nat) : Rat) = 9 ∧
      ((10 : Nat) : Rat) = 10 ∧ ((29 : Nat) : Rat) = 29 ∧ ((30 : Nat) : Rat) = 30 ∧
      ((999 : Nat) : Rat) = 999 := by decide +kernel
  obtain ⟨n16, n14, n49, n51, n1, n2, n4, n5, n9, n10, n29, n30, n999⟩ := num
  have l1 : (F64.lit 4999.99999999).val ≤ 5000 := by decide +kernel
  have l2 : 4999 ≤ (F64.lit 4999.99999999).val := by decide +kernel
  have s1 : k = 15 → f ≤ 1500 := fun e => feet_15 e q1 q2
  have s2 : k = 50 → (F64.lit 4999.99999999).val ≤ f := fun e => feet_50 e q1 q2
  generalize (F64.lit 4999.99999999).val = L at *
  have u14 := up 14; have g16 := lo 16; have u49 := up 49; have g51 := lo 51
  have u1 := up 1; have g2 := lo 2; have u4 := up 4; have g5 := lo 5; have u9 := up 9
  have g10 := lo 10; have u29 := up 29; have g30 := lo 30
  have u999 := up 999 (by omega)
  rw [n14] at u14; rw [n16] at g16; rw [n49] at u49; rw [n51] at g51; rw [n1] at u1
  rw [n2] at g2; rw [n4] at u4; rw [n5] at g5; rw [n9] at u9; rw [n10] at g10; rw [n29] at u29
  rw [n30] at g30; rw [n999] at u999
  refine ⟨⟨x, false⟩, ⟨f, false⟩, e1, e2, ?_, ?_, ?_, ?_, ?_, ?_, ?_⟩
  · constructor
    · intro hf
      apply Classical.byContradiction
      intro hc
      have := g16 (by omega)
      simp only at hf
      grind
    · intro hk'
      rcases Nat.lt_or_ge k 15 with h | h
      · have := u14 (by omega)
        simp only
        grind
      · exact s1 (by omega)
  · constructor
    · intro hf
      apply Classical.byContradiction
      intro hc
      simp only at hf
      rcases Nat.lt_or_ge k 51 with h | h
      · have := s2 (by omega)
        grind
      · have := g51 h
        grind
    · intro hk'
      have := u49 (by omega)
      simp only
      grind
  · constructor
    · intro hf
      apply Classical.byContradiction
      intro hc
      have := g2 (by omega)
      simp only at hf
      grind
    · intro hk'
      have := u1 (by omega)
      simp only
      grind
  · constructor
    · intro hf
      apply Classical.byContradiction
      intro hc
      have := g5 (by omega)
      simp only at hf
      grind
    · intro hk'
      have := u4 (by omega)
      simp only
      grind
  · constructor
    · intro hf
      apply Classical.byContradiction
      intro hc
      have := g10 (by omega)
      simp only at hf
      grind
    · intro hk'
      have := u9 (by omega)
      simp only
      grind
  · constructor
    · intro hf
      apply Classical.byContradiction
      intro hc
      have := g30 (by omega)
      simp only at hf
      grind
    · intro hk'
      have := u29 (by omega)
      simp only
      grind
  · simp only
    grind

/-- What `ceiling` does with a list beginning with a layer. -/
theorem ceiling_cons (l : Layer) (h : l.WF) (cs : List Cloud) :
    ceiling (layerCloud l :: cs) =
      if MostlyCovered l then
        match l.base.hundredsOfFeet with
        | none => .error .type
        | some k => if k ≤ 15 then .ok true else ceiling cs
      else ceiling cs := by
  rw [ceiling]
  by_cases hm : MostlyCovered l
  · rw [if_pos ((oktas_mostly l).2 hm), if_pos hm]
    cases hk : l.base.hundredsOfFeet with
    | none => rw [((layerCloud_height l h).1 hk).2]
    | some k =>
      obtain ⟨x, f, _, h2, h3, _⟩ := height_tests l h k hk
      rw [h2]
      simp only
      have l15 : (F64.lit 1500).val = 1500 := by decide +kernel
      by_cases hk15 : k ≤ 15
      · rw [if_pos hk15, if_pos]
        simp only [F64.le, l15, decide_eq_true_eq]
        exact h3.2 hk15
      · rw [if_neg hk15, if_neg]
        simp only [F64.le, l15, decide_eq_true_eq]
        exact fun hc => hk15 (h3.1 hc)
  · rw [if_neg (fun hc => hm ((oktas_mostly l).1 hc)), if_neg hm]

/-- C28. For clouds decoded from any list of layers: `ceiling` is `True` exactly when some BKN or
OVC layer is at or below 1500 feet and every BKN/OVC layer before it has a height; it raises
`TypeError` exactly when some BKN/OVC layer has no height and every BKN/OVC layer before it is
above 1500 feet; it is `False` exactly when every BKN/OVC layer has a height above 1500 feet. -/
theorem C28_ceiling (ls : List Layer) (cs : List Cloud) (hw : ∀ l ∈ ls, l.WF)
    (hd : AllDecode ls cs) :
    (ceiling cs = .ok true ↔ ∃ pre l post, ls = pre ++ l :: post ∧ MostlyCovered l ∧
      (∃ k, l.base.hundredsOfFeet = some k ∧ 100 * k ≤ 1500) ∧
      ∀ p ∈ pre, MostlyCovered p → ∃ k, p.base.hundredsOfFeet = some k) ∧
    (ceiling cs = .error .type ↔ ∃ pre l post, ls = pre ++ l :: post ∧ MostlyCovered l ∧
      l.base.hundredsOfFeet = none ∧
      ∀ p ∈ pre, MostlyCovered p → ∃ k, p.base.hundredsOfFeet = some k ∧ 1500 < 100 * k) ∧
    (ceiling cs = .ok false ↔
      ∀ l ∈ ls, MostlyCovered l → ∃ k, l.base.hundredsOfFeet = some k ∧ 1500 < 100 * k) ∧
    (ceiling cs = .ok true ∨ ceiling cs = .ok false ∨ ceiling cs = .error .type) := by
  rw [hd.eq_map hw]
  clear hd cs
  induction ls with
  | nil => simp [ceiling]
  | cons l ls ih =>
    have ih := ih (fun l hl => hw l (List.mem_cons_of_mem _ hl))
    obtain ⟨i1, i2, i3, i4⟩ := ih
    rw [List.map_cons, ceiling_cons l (hw l List.mem_cons_self)]
    -- a split of `l :: ls` is at `l` or inside `ls`
    have split : ∀ (P : Layer → Prop) (Q : Layer → Prop),
        (∃ pre x post, l :: ls = pre ++ x :: post ∧ P x ∧ ∀ p ∈ pre, Q p) ↔
          (P l ∨ (Q l ∧ ∃ pre x post, ls = pre ++ x :: post ∧ P x ∧ ∀ p ∈ pre, Q p)) := by
      intro P Q
      constructor
      · rintro ⟨pre, x, post, he, hx, hp⟩
        cases pre with
        | nil =>
          simp only [List.nil_append, List.cons.injEq] at he
          exact .inl (he.1 ▸ hx)
        | cons a pre =>
          simp only [List.cons_append, List.cons.injEq] at he
          refine .inr ⟨he.1 ▸ hp a (by simp), pre, x, post, he.2, hx, ?_⟩
          exact fun p hpp => hp p (by simp [hpp])
      · rintro (hl | ⟨hq, pre, x, post, he, hx, hp⟩)
        · exact ⟨[], l, ls, rfl, hl, by simp⟩
        · refine ⟨l :: pre, x, post, by simp [he], hx, ?_⟩
          intro p hpp
          rcases List.mem_cons.1 hpp with rfl | hpp
          · exact hq
          · exact hp p hpp
    have s1 := split (fun l => MostlyCovered l ∧ ∃ k, l.base.hundredsOfFeet = some k ∧ 100 * k ≤ 1500)
      (fun p => MostlyCovered p → ∃ k, p.base.hundredsOfFeet = some k)
    have s2 := split (fun l => MostlyCovered l ∧ l.base.hundredsOfFeet = none)
      (fun p => MostlyCovered p → ∃ k, p.base.hundredsOfFeet = some k ∧ 1500 < 100 * k)
    simp only [and_assoc] at s1 s2
    rw [s1, s2]
    simp only [List.forall_mem_cons]
    rw [← i1, ← i2, ← i3]
    by_cases hm : MostlyCovered l
    · simp only [hm, if_true, true_and, true_implies]
      cases hk : l.base.hundredsOfFeet with
      | none => simp
      | some k =>
        simp only [Option.some.injEq, exists_eq_left', reduceCtorEq, false_or, exists_eq', true_and]
        by_cases h15 : k ≤ 15
        · have g1 : 100 * k ≤ 1500 := by omega
          have g2 : ¬ 1500 < 100 * k := by omega
          simp [h15, g1, g2]
        · have g1 : ¬ 100 * k ≤ 1500 := by omega
          have g2 : 1500 < 100 * k := by omega
          simp only [h15, if_false, g1, false_or, g2, true_and]
          exact i4
    · simp only [hm, if_false, false_and, false_or, false_implies, true_and]
      exact i4

/-- `BKN///` makes `ceiling` (and so `should_be_cavok`) raise `TypeError`. -/
example : ceiling [⟨some py!"BKN///", some py!"broken", some py!"5-7", none, none⟩] =
    .error .type := by rfl

/-! ### C29: flight rules -/

/-- The categories with their bounds in metres: ceiling, visibility. -/
def categories : List (PyStr × Rat × Rat) :=
  [(py!"VLIFR", 60, 800), (py!"LIFR", 150, 1600), (py!"IFR", 300, 5000), (py!"MVFR", 900, 8000),
   (py!"VFR", 40000, 20000)]

/-- The value is given and is below the bound. -/
def Below (v : Option F64) (bound : Rat) : Prop := ∃ x, v = some x ∧ x.val < bound

instance (v : Option F64) (b : Rat) : Decidable (Below v b) :=
  match v with
  | none => isFalse (by rintro ⟨x, h, _⟩; cases h)
  | some x => if h : x.val < b then isTrue ⟨x, rfl, h⟩
    else isFalse (by rintro ⟨y, e, hy⟩; cases e; exact h hy)

/-- Layers that make a ceiling for the flight rules. -/
def makesCeiling (c : Cloud) : Bool :=
  c.cover = some py!"broken" ∨ c.cover = some py!"overcast" ∨
    c.cover = some py!"indefinite ceiling"

/-- Base of the first layer that makes a ceiling. -/
def ceilingBase (cs : List Cloud) : Option F64 := (cs.find? makesCeiling).bind (·.height)

theorem rulesCeiling_eq (cs : List Cloud) : rulesCeiling cs = ceilingBase cs := by
  induction cs with
  | nil => rfl
  | cons c cs ih =>
    unfold rulesCeiling ceilingBase
    by_cases h : makesCeiling c
    · simp only [makesCeiling, decide_eq_true_eq] at h
      rw [if_pos h, List.find?_cons_of_pos (by simpa [makesCeiling] using h)]
      rfl
    · simp only [makesCeiling, decide_eq_true_eq] at h
      rw [if_neg h, List.find?_cons_of_neg (by simpa [makesCeiling] using h)]
      exact ih

theorem rulesTable_vals : flightRulesTable.map (fun t => (t.1, t.2.1.val, t.2.2.val)) = categories := by
  decide +kernel

theorem rulesGo_eq (p c : Option F64) (h : ¬ (p = none ∧ c = none))
    (tab : List (PyStr × F64 × F64)) :
    rulesGo p c tab = (((tab.map fun t => (t.1, t.2.1.val, t.2.2.val)).find? fun t =>
      decide (Below c t.2.1 ∨ Below p t.2.2)).map (·.1)) := by
  induction tab with
  | nil => rfl
  | cons t tab ih =>
    obtain ⟨name, r0, r1⟩ := t
    unfold rulesGo
    cases p with
    | none =>
      cases c with
      | none => exact absurd ⟨rfl, rfl⟩ h
      | some c =>
        simp only [List.map_cons]
        by_cases hc : c.val < r0.val
        · rw [if_pos (by simpa [F64.lt] using hc), List.find?_cons_of_pos (by simp [Below, hc])]
          rfl
        · rw [if_neg (by simpa [F64.lt] using hc), List.find?_cons_of_neg (by simp [Below, hc])]
          exact ih
    | some p =>
      cases c with
      | none =>
        simp only [List.map_cons]
        by_cases hc : p.val < r1.val
        · rw [if_pos (by simpa [F64.lt] using hc), List.find?_cons_of_pos (by simp [Below, hc])]
          rfl
        · rw [if_neg (by simpa [F64.lt] using hc), List.find?_cons_of_neg (by simp [Below, hc])]
          exact ih
      | some c =>
        simp only [List.map_cons]
        by_cases hc : c.val < r0.val ∨ p.val < r1.val
        · rw [if_pos (by simpa [F64.lt] using hc), List.find?_cons_of_pos (by simp [Below, hc])]
          rfl
        · rw [if_neg (by simpa [F64.lt] using hc), List.find?_cons_of_neg (by simpa [Below] using hc)]
          exact ih

/-- C29. For every visibility and every list of clouds, `flight_rules` is the first category, in
the order VLIFR, LIFR, IFR, MVFR, VFR, whose ceiling bound exceeds the base of the first broken,
overcast or indefinite layer, or whose visibility bound exceeds the visibility. -/
theorem C29_flight_rules (vis : Option F64) (cs : List Cloud) :
    flightRules vis cs = (categories.find? fun t =>
      decide (Below (ceilingBase cs) t.2.1 ∨ Below vis t.2.2)).map (·.1) := by
  unfold flightRules
  simp only
  rw [rulesCeiling_eq]
  by_cases h : vis = none ∧ ceilingBase cs = none
  · rw [if_pos h, h.1, h.2]
    decide
  · rw [if_neg h, rulesGo_eq _ _ h, rulesTable_vals]

/-- Does the layer make a ceiling: BKN, OVC or VV. -/
def Layer.makesCeiling (l : Layer) : Bool := l.cover = .bkn ∨ l.cover = .ovc ∨ l.cover = .vv

/-- The categories with the ceiling bound in hundreds of feet. -/
def categoriesFt : List (PyStr × Nat × Rat) :=
  [(py!"VLIFR", 2, 800), (py!"LIFR", 5, 1600), (py!"IFR", 10, 5000), (py!"MVFR", 30, 8000),
   (py!"VFR", 1000, 20000)]

theorem makesCeiling_layer (l : Layer) : Props.makesCeiling (layerCloud l) = Layer.makesCeiling l := by
  obtain ⟨c, b, k⟩ := l
  cases c <;> rfl

theorem ceilingBase_map (ls : List Layer) :
    ceilingBase (ls.map layerCloud) = (ls.find? Layer.makesCeiling).bind fun l => (layerCloud l).height := by
  induction ls with
  | nil => rfl
  | cons l ls ih =>
    unfold ceilingBase at ih ⊢
    rw [List.map_cons]
    by_cases h : Layer.makesCeiling l = true
    · rw [List.find?_cons_of_pos (by rwa [makesCeiling_layer]), List.find?_cons_of_pos h]
      rfl
    · rw [List.find?_cons_of_neg (by rwa [makesCeiling_layer]), List.find?_cons_of_neg h]
      exact ih

/-- C29, in terms of the text of the report: with `k` the stated hundreds of feet of the first BKN,
OVC or VV layer, the ceiling part of the test is `k < 2`, `k < 5`, `k < 10`, `k < 30`, and always
true for VFR. -/
theorem C29_flight_rules_layers (vis : Option F64) (ls : List Layer) (cs : List Cloud)
    (hw : ∀ l ∈ ls, l.WF) (hd : AllDecode ls cs) :
    flightRules vis cs = (categoriesFt.find? fun t =>
      decide ((∃ k, ((ls.find? Layer.makesCeiling).bind (·.base.hundredsOfFeet)) = some k ∧ k < t.2.1) ∨
        Below vis t.2.2)).map (·.1) := by
  rw [C29_flight_rules, hd.eq_map hw, ceilingBase_map]
  -- the tests agree row by row
  have key : ∀ (P : Rat → Prop) (Q : Nat → Prop) [∀ r, Decidable (P r)] [∀ n, Decidable (Q n)],
      (P 60 ↔ Q 2) → (P 150 ↔ Q 5) → (P 300 ↔ Q 10) → (P 900 ↔ Q 30) → (P 40000 ↔ Q 1000) →
      (categories.find? fun t => decide (P t.2.1 ∨ Below vis t.2.2)).map (·.1) =
        (categoriesFt.find? fun t => decide (Q t.2.1 ∨ Below vis t.2.2)).map (·.1) := by
    intro P Q _ _ e1 e2 e3 e4 e5
    simp only [categories, categoriesFt, List.find?_cons, List.find?_nil, e1, e2, e3, e4, e5]
    generalize decide (Q 2 ∨ Below vis 800) = a1
    generalize decide (Q 5 ∨ Below vis 1600) = a2
    generalize decide (Q 10 ∨ Below vis 5000) = a3
    generalize decide (Q 30 ∨ Below vis 8000) = a4
    generalize decide (Q 1000 ∨ Below vis 20000) = a5
    cases a1 <;> cases a2 <;> cases a3 <;> cases a4 <;> cases a5 <;> rfl
  refine key (Below _) (fun n => ∃ k, _ = some k ∧ k < n) ?_ ?_ ?_ ?_ ?_ <;>
  cases hf : ls.find? Layer.makesCeiling with
  | none => simp [Below]
  | some l =>
    have hl := hw l (List.mem_of_find?_eq_some hf)
    simp only [Option.bind_some]
    cases hk : l.base.hundredsOfFeet with
    | none =>
      rw [((layerCloud_height l hl).1 hk).1]
      simp [Below]
    | some k =>
      obtain ⟨x, f, h1, _, _, _, t1, t2, t3, t4, t5⟩ := height_tests l hl k hk
      have hk1 := ((layerCloud_height l hl).2 k hk).1
      rw [h1]
      simp [Below, t1, t2, t3, t4, t5, hk1]

/-- C29, the unrestricted claim is false: `11SM` is decoded to a visibility of more than 20 km, and
then `flight_rules` is `None` although the visibility is known. -/
theorem C29_none_despite_data :
    ∃ m v, MetarRegExp.VISIBILITY.match py!"11SM" = some m ∧ prevailing m = .ok v ∧
      (∃ x, v.vis = some x ∧ 20000 ≤ x.val) ∧ flightRules v.vis [] = none := by
  have h : (match MetarRegExp.VISIBILITY.match py!"11SM" with
    | some m => match prevailing m with
      | .ok v => (v.vis.any fun x => decide (20000 ≤ x.val)) && decide (flightRules v.vis [] = none)
      | .error _ => false
    | none => false) = true := by decide +kernel
  split at h
  · next m hm =>
    split at h
    · next v hv =>
      simp only [Bool.and_eq_true, decide_eq_true_eq, Option.any_eq_true] at h
      obtain ⟨⟨x, hx, hx'⟩, h2⟩ := h
      exact ⟨m, v, hm, hv, ⟨x, hx, hx'⟩, h2⟩
    · cases h
  · cases h

/-- Cases of `C29_flight_rules`. -/
example : flightRules (some (F64.ofNat 3000)) [] = some py!"IFR" := by decide +kernel
example : flightRules (some (F64.ofNat 9000)) [⟨none, some py!"overcast", none, none,
    some (F64.ofNat 100)⟩] = some py!"LIFR" := by decide +kernel

/-! ### C30: monotonicity -/

/-- Quality of a category, worst first; no restriction at all is the best. -/
def rank : Option PyStr → Nat
  | none => 5
  | some n => (categories.map (·.1)).idxOf n

/-- The value is the same or lower (a missing value is no restriction, the highest of all). -/
def NotHigher : Option F64 → Option F64 → Prop
  | _, none => True
  | some x, some y => x.val ≤ y.val
  | none, some _ => False

theorem NotHigher.below {a b : Option F64} (h : NotHigher a b) {r : Rat} (hb : Below b r) :
    Below a r := by
  obtain ⟨y, rfl, hy⟩ := hb
  cases a with
  | none => exact h.elim
  | some x => exact ⟨x, rfl, by have : x.val ≤ y.val := h; grind⟩

/-- C30. Lowering the visibility, the ceiling or both never gives a better category. -/
theorem C30_monotone (vis vis' : Option F64) (cs cs' : List Cloud)
    (hv : NotHigher vis' vis) (hc : NotHigher (ceilingBase cs') (ceilingBase cs)) :
    rank (flightRules vis' cs') ≤ rank (flightRules vis cs) := by
  rw [C29_flight_rules, C29_flight_rules]
  generalize ceilingBase cs = c at *
  generalize ceilingBase cs' = c' at *
  have key : ∀ r0 r1 : Rat, decide (Below c r0 ∨ Below vis r1) = true →
      decide (Below c' r0 ∨ Below vis' r1) = true := by
    intro r0 r1 h
    simp only [decide_eq_true_eq] at h ⊢
    exact h.imp hc.below hv.below
  simp only [categories, List.find?_cons, List.find?_nil]
  have k0 := key 60 800
  have k1 := key 150 1600
  have k2 := key 300 5000
  have k3 := key 900 8000
  have k4 := key 40000 20000
  have r : rank (some py!"VLIFR") = 0 ∧ rank (some py!"LIFR") = 1 ∧ rank (some py!"IFR") = 2 ∧
    rank (some py!"MVFR") = 3 ∧ rank (some py!"VFR") = 4 ∧ rank none = 5 := by decide
  obtain ⟨r0, r1, r2, r3, r4, r5⟩ := r
  generalize decide (Below c 60 ∨ Below vis 800) = a0 at *
  generalize decide (Below c' 60 ∨ Below vis' 800) = b0 at *
  generalize decide (Below c 150 ∨ Below vis 1600) = a1 at *
  generalize decide (Below c' 150 ∨ Below vis' 1600) = b1 at *
  generalize decide (Below c 300 ∨ Below vis 5000) = a2 at *
  generalize decide (Below c' 300 ∨ Below vis' 5000) = b2 at *
  generalize decide (Below c 900 ∨ Below vis 8000) = a3 at *
  generalize decide (Below c' 900 ∨ Below vis' 8000) = b3 at *
  generalize decide (Below c 40000 ∨ Below vis 20000) = a4 at *
  generalize decide (Below c' 40000 ∨ Below vis' 20000) = b4 at *
  cases b0
  · cases a0
    · cases b1
      · cases a1
        · cases b2
          · cases a2
            · cases b3
              · cases a3
                · cases b4
                  · cases a4
                    · simp
                    · simp at k4
                  · cases a4 <;> simp [r4, r5]
                · simp at k3
              · cases a3 <;> cases a4 <;> simp [r3, r4, r5]
            · simp at k2
          · cases a2 <;> cases a3 <;> cases a4 <;> simp [r2, r3, r4, r5]
        · simp at k1
      · cases a1 <;> cases a2 <;> cases a3 <;> cases a4 <;> simp [r1, r2, r3, r4, r5]
    · simp at k0
  · simp [r0]

/-- Hypotheses of `C30_monotone` with a strict drop of the category. -/
example : NotHigher (some (F64.ofNat 3000)) (some (F64.ofNat 9000)) ∧
    rank (flightRules (some (F64.ofNat 3000)) []) = 2 ∧
    rank (flightRules (some (F64.ofNat 9000)) []) = 4 := by
  refine ⟨?_, ?_, ?_⟩
  · show (F64.ofNat 3000).val ≤ (F64.ofNat 9000).val
    decide +kernel
  · decide +kernel
  · decide +kernel

/-! ### C31, C32: should_be_cavok -/

/-- The layer does not prevent CAVOK: neither CB nor TCU, and not below 5000 feet. With `isSame`
(the outcome of an identity comparison of texts) also not VV. -/
def Harmless (isSame : Bool) (l : Layer) : Prop :=
  l.kind ≠ .cb ∧ l.kind ≠ .tcu ∧ (∀ k, l.base.hundredsOfFeet = some k → 5000 ≤ 100 * k) ∧
    (isSame = true → l.cover ≠ .vv)

theorem kind_words (l : Layer) : ((layerCloud l).type = some py!"cumulonimbus" ∨
    (layerCloud l).type = some py!"towering cumulus") ↔ (l.kind = .cb ∨ l.kind = .tcu) := by
  obtain ⟨c, b, k⟩ := l
  cases k <;> simp [layerCloud, Kind.words]

theorem cover_vv (l : Layer) : (layerCloud l).cover = some py!"indefinite ceiling" ↔ l.cover = .vv := by
  obtain ⟨c, b, k⟩ := l
  cases c <;> simp [layerCloud, Cover.words]

/-- One turn of the loop decides whether the layer is harmless. -/
theorem cavok_turn (isSame : Bool) (l : Layer) (h : l.WF) (f : Nat) (g g' : GroupList Cloud)
    (hn : g.next = (some (layerCloud l), g')) :
    (Harmless isSame l → Core.cavokGo isSame (f + 1) g = Core.cavokGo isSame f g') ∧
    (¬ Harmless isSame l → Core.cavokGo isSame (f + 1) g = (false, g')) := by
  have e : Core.cavokGo isSame (f + 1) g =
      if isSame ∧ (layerCloud l).cover = some py!"indefinite ceiling" then (false, g')
      else if (layerCloud l).type = some py!"cumulonimbus" ∨
          (layerCloud l).type = some py!"towering cumulus" then (false, g')
      else match (layerCloud l).heightInFeet with
        | some h => if h.lt (F64.lit 4999.99999999) then (false, g') else Core.cavokGo isSame f g'
        | none => Core.cavokGo isSame f g' := by
    rw [Core.cavokGo, hn]
    rfl
  rw [e]
  simp only [cover_vv, kind_words]
  unfold Harmless
  by_cases h1 : isSame = true ∧ l.cover = .vv
  · rw [if_pos h1]
    exact ⟨fun hh => absurd h1.2 (hh.2.2.2 h1.1), fun _ => rfl⟩
  · rw [if_neg h1]
    by_cases h2 : l.kind = .cb ∨ l.kind = .tcu
    · rw [if_pos h2]
      refine ⟨fun hh => ?_, fun _ => rfl⟩
      rcases h2 with h2 | h2
      · exact absurd h2 hh.1
      · exact absurd h2 hh.2.1
    · rw [if_neg h2]
      have g1 : isSame = true → l.cover ≠ .vv := fun a b => h1 ⟨a, b⟩
      have g2 : l.kind ≠ .cb := fun a => h2 (.inl a)
      have g3 : l.kind ≠ .tcu := fun a => h2 (.inr a)
      cases hk : l.base.hundredsOfFeet with
      | none =>
        rw [((layerCloud_height l h).1 hk).2]
        refine ⟨fun _ => rfl, fun hh => absurd ⟨g2, g3, ?_, g1⟩ hh⟩
        intro k hk'; cases hk'
      | some k =>
        obtain ⟨x, f', _, e2, _, e4, _⟩ := height_tests l h k hk
        rw [e2]
        simp only [F64.lt, decide_eq_true_eq]
        by_cases h50 : k < 50
        · rw [if_pos (e4.2 h50)]
          refine ⟨fun hh => ?_, fun _ => rfl⟩
          have := hh.2.2.1 k rfl
          omega
        · rw [if_neg (fun hc => h50 (e4.1 hc))]
          refine ⟨fun _ => rfl, fun hh => absurd ⟨g2, g3, ?_, g1⟩ hh⟩
          intro k' hk'; cases hk'; omega

/-- The loop from a cursor: `True` exactly when all layers from the cursor on are harmless, and then
the cursor is back at the beginning; otherwise the cursor stays behind the first harmful layer. -/
theorem cavokGo_layers (isSame : Bool) (ls : List Layer) (hw : ∀ l ∈ ls, l.WF) (f : Nat)
    (g : GroupList Cloud) (hg : g.list.drop g.n = ls.map layerCloud) (hf : ls.length < f) :
    ((Core.cavokGo isSame f g).1 = true ↔ ∀ l ∈ ls, Harmless isSame l) ∧
    ((Core.cavokGo isSame f g).1 = true → (Core.cavokGo isSame f g).2 = { g with n := 0 }) := by
  induction ls generalizing f g with
  | nil =>
    obtain ⟨f, rfl⟩ : ∃ f', f = f' + 1 := ⟨f - 1, by simp at hf; omega⟩
    have hge : g.n ≥ g.list.length := by simpa using hg
    have e : Core.cavokGo isSame (f + 1) g = (true, { g with n := 0 }) := by
      simp [Core.cavokGo, GroupList.next, hge]
    rw [e]; simp
  | cons l ls ih =>
    obtain ⟨f, rfl⟩ : ∃ f', f = f' + 1 := ⟨f - 1, by simp at hf; omega⟩
    have hlt : g.n < g.list.length := by
      apply Classical.byContradiction
      intro hc
      rw [List.drop_of_length_le (by omega)] at hg
      cases hg
    rw [List.drop_eq_getElem_cons hlt, List.map_cons, List.cons.injEq] at hg
    have hn : g.next = (some (layerCloud l), { g with n := g.n + 1 }) := by
      unfold GroupList.next
      rw [if_neg (by omega), List.getElem?_eq_getElem hlt, hg.1]
    obtain ⟨t1, t2⟩ := cavok_turn isSame l (hw l List.mem_cons_self) f g _ hn
    by_cases hh : Harmless isSame l
    · rw [t1 hh]
      have := ih (fun l hl => hw l (List.mem_cons_of_mem _ hl)) f { g with n := g.n + 1 }
        (by simpa using hg.2) (by simpa using hf)
      simp only [List.forall_mem_cons, hh, true_and]
      exact this
    · rw [t2 hh]
      simp [hh]

/-- C31. On a freshly parsed report `should_be_cavok()` is `True` exactly when there is no weather
group, there are clouds, the visibility is given and at least 10 km, every BKN/OVC layer has a
height, no layer is CB or TCU, and no layer is below 5000 feet. (`isSame` is the unspecified
outcome of the identity test for VV layers.) -/
theorem C31_should_be_cavok (isSame : Bool) (c : Core) (ls : List Layer) (hw : ∀ l ∈ ls, l.WF)
    (hd : AllDecode ls c.clouds.list) (hn : c.clouds.n = 0) :
    (c.shouldBeCavok isSame).1 = .ok true ↔
      c.weathers.list = [] ∧ ls ≠ [] ∧ (∃ v, c.prevailing.vis = some v ∧ 10000 ≤ v.val) ∧
      (∀ l ∈ ls, MostlyCovered l → ∃ k, l.base.hundredsOfFeet = some k) ∧
      ∀ l ∈ ls, Harmless isSame l := by
  have hc := hd.eq_map hw
  have hC := C28_ceiling ls c.clouds.list hw hd
  obtain ⟨hT, hE, hF, hAny⟩ := hC
  have hlen : c.clouds.list.length = ls.length := by rw [hc]; simp
  have l10 : (F64.lit 10000).val = 10000 := by decide +kernel
  have hgo := cavokGo_layers isSame ls hw (c.clouds.list.length + 1) c.clouds
    (by rw [hn, hc]; simp) (by rw [hlen]; omega)
  unfold Core.shouldBeCavok
  by_cases hwx : c.weathers.list.length > 0
  · rw [if_pos hwx]
    simp only [Except.ok.injEq, Bool.false_eq_true, false_iff, not_and]
    intro h; rw [h] at hwx; simp at hwx
  · rw [if_neg hwx]
    have hw0 : c.weathers.list = [] := by
      cases hx : c.weathers.list with
      | nil => rfl
      | cons a t => rw [hx] at hwx; simp at hwx
    -- a harmless list has no ceiling
    have noceil : (∀ l ∈ ls, MostlyCovered l → ∃ k, l.base.hundredsOfFeet = some k) →
        (∀ l ∈ ls, Harmless isSame l) → ceiling c.clouds.list = .ok false := by
      intro h1 h2
      rw [hF]
      intro l hl hm
      obtain ⟨k, hk⟩ := h1 l hl hm
      have := (h2 l hl).2.2.1 k hk
      exact ⟨k, hk, by omega⟩
    rcases hAny with hce | hce | hce
    · rw [hce]
      simp only [Except.ok.injEq, Bool.false_eq_true, false_iff]
      rintro ⟨_, _, _, h1, h2⟩
      rw [noceil h1 h2] at hce; cases hce
    · rw [hce]
      simp only
      have hhave : ∀ l ∈ ls, MostlyCovered l → ∃ k, l.base.hundredsOfFeet = some k := by
        intro l hl hm
        obtain ⟨k, hk, _⟩ := (hF.1 hce) l hl hm
        exact ⟨k, hk⟩
      cases hv : c.prevailing.vis with
      | none => simp
      | some v =>
        simp only
        by_cases hl0 : c.clouds.list.length = 0
        · rw [if_pos hl0]
          have : ls = [] := by rw [hlen] at hl0; exact List.eq_nil_of_length_eq_zero hl0
          simp [this]
        · rw [if_neg hl0]
          have hls : ls ≠ [] := by rintro rfl; simp at hlen; exact hl0 (by simp [hlen])
          by_cases hv10 : v.lt (F64.lit 10000)
          · rw [if_pos hv10]
            simp only [F64.lt, l10, decide_eq_true_eq] at hv10
            simp only [Except.ok.injEq, Bool.false_eq_true, false_iff]
            rintro ⟨_, _, ⟨v', e, h10⟩, _⟩
            cases e
            grind
          · rw [if_neg hv10]
            simp only [F64.lt, l10, decide_eq_true_eq] at hv10
            have hv10' : 10000 ≤ v.val := by grind
            simp only [Except.ok.injEq]
            rw [hgo.1]
            constructor
            · intro h
              exact ⟨hw0, hls, ⟨v, rfl, hv10'⟩, hhave, h⟩
            · intro h; exact h.2.2.2.2
    · rw [hce]
      simp only [reduceCtorEq, false_iff]
      rintro ⟨_, _, _, h1, h2⟩
      rw [noceil h1 h2] at hce; cases hce

/-- A report for which the answer is `True`: visibility 10 km, one layer FEW060. -/
def clearSample : Core :=
  { prevailing := ⟨some py!"9999", some (F64.ofNat 10000), ⟨none, false⟩, false⟩
    clouds := { n := 0, max := 4, list := [layerCloud ⟨.few, .hundreds py!"060", .absent⟩] } }

/-- A report with one layer FEW030. -/
def lowSample : Core :=
  { prevailing := ⟨some py!"9999", some (F64.ofNat 10000), ⟨none, false⟩, false⟩
    clouds := { n := 0, max := 4, list := [layerCloud ⟨.few, .hundreds py!"030", .absent⟩] } }

example : (clearSample.shouldBeCavok true).1 = .ok true := by decide +kernel
example : (lowSample.shouldBeCavok true).1 = .ok false := by decide +kernel

/-- The report after asking once. -/
def askAgain (isSame : Bool) (c : Core) : Core := { c with clouds := (c.shouldBeCavok isSame).2 }

/-- C32. On a freshly parsed report the answer `True` is stable: asking leaves the report exactly as
it was, so every later answer is `True` again. -/
theorem C32_true_is_stable (isSame : Bool) (c : Core) (ls : List Layer) (hw : ∀ l ∈ ls, l.WF)
    (hd : AllDecode ls c.clouds.list) (hn : c.clouds.n = 0)
    (h : (c.shouldBeCavok isSame).1 = .ok true) :
    askAgain isSame c = c := by
  have hc := hd.eq_map hw
  have hlen : c.clouds.list.length = ls.length := by rw [hc]; simp
  have hgo := cavokGo_layers isSame ls hw (c.clouds.list.length + 1) c.clouds
    (by rw [hn, hc]; simp) (by rw [hlen]; omega)
  have hsame : (c.shouldBeCavok isSame).2 = c.clouds := by
    unfold Core.shouldBeCavok at h ⊢
    split at h
    · cases h
    · split at h
      · cases h
      · cases h
      · next hce =>
        split at h
        · cases h
        · split at h
          · cases h
          · split at h
            · cases h
            · simp only [Except.ok.injEq] at h
              next v hv hl hlt =>
              rw [if_neg hl, if_neg hlt]
              simp only
              rw [hgo.2 h]
              cases hcl : c.clouds with
              | mk n mx l => rw [hcl] at hn; simp only at hn; rw [hn]; split <;> rfl
  unfold askAgain
  rw [hsame]

/-- C32, the unrestricted claim is false: on a report with the single layer FEW030 the answers to
the same question are `False`, `True`, `False`, and a full iteration over the clouds after the
first answer yields no layer at all. -/
theorem C32_answers_alternate :
    let c1 := askAgain false lowSample
    let c2 := askAgain false c1
    (lowSample.shouldBeCavok false).1 = .ok false ∧ (c1.shouldBeCavok false).1 = .ok true ∧
      (c2.shouldBeCavok false).1 = .ok false ∧ lowSample.clouds.iter.1.length = 1 ∧
      c1.clouds.iter.1 = [] := by
  decide +kernel

/-- The hypotheses of C31 and C32 hold for the samples. -/
example : AllDecode [⟨.few, .hundreds py!"060", .absent⟩] clearSample.clouds.list ∧
    AllDecode [⟨.few, .hundreds py!"030", .absent⟩] lowSample.clouds.list := by
  refine ⟨⟨(decodesTo_iff ?_).2 rfl, trivial⟩, ⟨(decodesTo_iff ?_).2 rfl, trivial⟩⟩
  · exact ⟨rfl, by decide⟩
  · exact ⟨rfl, by decide⟩

end Verif.Props
