import Verif.Spec.Rules
import Verif.Props.Conditions
import Verif.Props.Compare

/-
Flight rules and CAVOK analysis from the numbers written in a report (C104).
-/

namespace Verif.Props
open Verif Verif.Spec

/-! ### C104 -/

/-- The bounds of visibility used by `flight_rules` and `should_be_cavok`. -/
def visBounds : List Nat := [800, 1600, 5000, 8000, 10000, 20000]

/-- The miles never hit a bound: 1852 has the prime factor 463. -/
theorem miles_gap {r : Range} (hr : r.WF) {B : Nat} (hB : B ∈ visBounds) :
    ∃ M : Nat, r.amount * 2520 = M ∧ M ≤ 108 * 2520 ∧ 1852 * M ≠ B * 2520 := by
  obtain ⟨N, hN, hN'⟩ := fraction_grid r.fraction
  obtain ⟨K, hK, hK'⟩ : ∃ K : Nat, wholePart r.integer = K ∧ K ≤ 99 := by
    cases hi : r.integer with
    | none => exact ⟨0, rfl, by omega⟩
    | some ds =>
      refine ⟨digitsVal ds, rfl, ?_⟩
      have := digitsVal_lt ds
      rcases (hr.1 ds hi).1 with l | l <;> rw [l] at this <;> omega
  refine ⟨K * 2520 + N, ?_, by omega, ?_⟩
  · unfold Range.amount
    rw [hK]
    simp only [Rat.natCast_add, Rat.natCast_mul]
    rw [← hN]
    grind
  · simp only [visBounds, List.mem_cons, List.not_mem_nil, or_false] at hB
    rcases hB with rfl | rfl | rfl | rfl | rfl | rfl <;> omega

/-- C104. The rounding of the conversions never carries a visibility over a bound: the decoded
number is below a bound exactly when the stated quantity is. -/
theorem C104_threshold (w : VisGroup) (hw : w.WF) (x : Visibility) (h : VisSays w x) (B : Nat)
    (hB : B ∈ visBounds) : Below x.vis B ↔ ∃ q, w.metresStated = some q ∧ q < B := by
  have whole_case : ∀ n : Option Nat, x.vis = n.map whole → w.metresStated = n.map (fun n : Nat => (n : Rat)) →
      (Below x.vis B ↔ ∃ q, w.metresStated = some q ∧ q < B) := by
    intro n e1 e2
    rw [e1, e2]
    cases n with
    | none => simp [Below]
    | some n => simp [Below, whole]
  have h1 := h.1
  match w, hw, h1, whole_case with
  | .metres v d, _, h1, whole_case => exact whole_case v.number h1 rfl
  | .cavok, _, h1, whole_case => exact whole_case (some 10000) h1 rfl
  | .range r, hw, h1, whole_case =>
    unfold VisGroup.SaysMetres at h1
    cases hu : r.unit with
    | m => simp only [hu] at h1; exact whole_case none h1 (by simp [VisGroup.metresStated, hu])
    | u => simp only [hu] at h1; exact whole_case none h1 (by simp [VisGroup.metresStated, hu])
    | km =>
      simp only [hu] at h1
      exact whole_case (r.integer.map fun ds => digitsVal ds * 1000) (by rw [h1, Option.map_map]; rfl)
        (by simp only [VisGroup.metresStated, hu, Option.map_map]; rfl)
    | sm =>
      simp only [hu] at h1
      by_cases hn : r.integer = none ∧ r.fraction = none
      · rw [if_pos hn] at h1
        exact whole_case none h1 (by simp [VisGroup.metresStated, hu, hn])
      · rw [if_neg hn] at h1
        obtain ⟨v, hv, h0, hl, hr⟩ := h1
        obtain ⟨M, hM, hM', hne⟩ := miles_gap hw hB
        have e : (VisGroup.range r).metresStated = some (r.amount * 1852) := by
          simp only [VisGroup.metresStated, hu, if_neg hn]
        rw [hv, e]
        simp only [Below, Option.some.injEq, exists_eq_left']
        have hMr : (M : Rat) ≤ 108 * 2520 := by exact_mod_cast hM'
        rcases Nat.lt_or_gt_of_ne hne with h | h
        · have h' : (1852 * M : Rat) + 1 ≤ B * 2520 := by exact_mod_cast h
          constructor <;> intro <;> grind
        · have h' : (B * 2520 : Rat) + 1 ≤ 1852 * M := by exact_mod_cast h
          constructor <;> intro <;> grind

/-- What `flight_rules` and `should_be_cavok` return, from the text: the layers decoded at the positions
`clo..chi`, the weather at `wlo..whi`, and the stated visibility `q`. -/
def Assessed (c : List (PyStr × Nat)) (wlo whi clo chi : Nat) (q : Option Rat) (k : Core) : Prop :=
  ∃ ls : List Layer, taken c clo chi = ls.map Layer.text ∧ (∀ l ∈ ls, l.WF) ∧
    k.flightRules = category (statedCeiling ls) q ∧
    ∀ isSame, (k.shouldBeCavok isSame).1 = .ok true ↔
      taken c wlo whi = [] ∧ ls ≠ [] ∧ (∃ p, q = some p ∧ 10000 ≤ p) ∧
      (∀ l ∈ ls, MostlyCovered l → ∃ n, l.base.hundredsOfFeet = some n) ∧ ∀ l ∈ ls, Harmless isSame l

/-- The decoded visibility `v` passes the same tests as the stated one. -/
def SameTests (v : Option F64) (q : Option Rat) : Prop :=
  (v.isSome ↔ q.isSome) ∧ ∀ B ∈ visBounds, Below v (B : Nat) ↔ ∃ p, q = some p ∧ p < (B : Nat)

theorem sameTests_of {w : VisGroup} (hw : w.WF) {x : Visibility} (h : VisSays w x) :
    SameTests x.vis w.metresStated := by
  refine ⟨?_, fun B hB => C104_threshold w hw x h B hB⟩
  have := (vis_units h).1.m
  unfold Gives at this
  cases hq : w.metresStated with
  | none => rw [hq] at this; rw [show x.vis = none from this]; simp
  | some q =>
    rw [hq] at this
    obtain ⟨y, e, -⟩ := this
    rw [show x.vis = some y from e]
    simp

theorem category_eq {v : Option F64} {q : Option Rat} (h : SameTests v q) (ls : List Layer) :
    (categoriesFt.find? fun t =>
      decide ((∃ n, ((ls.find? Layer.makesCeiling).bind (·.base.hundredsOfFeet)) = some n ∧ n < t.2.1) ∨
        Below v t.2.2)).map (·.1) = category (statedCeiling ls) q := by
  have hc : (ls.find? Layer.makesCeiling).bind (·.base.hundredsOfFeet) = statedCeiling ls := rfl
  rw [hc]
  generalize statedCeiling ls = k
  have hv : ∀ B ∈ visBounds, (Below v (B : Nat) ↔ (q.any fun q : Rat => decide (q < (B : Rat))) = true) := by
    intro B hB
    rw [h.2 B hB]
    cases q <;> simp
  have hk : ∀ b : Nat, (∃ n, k = some n ∧ n < b) ↔ (k.any fun k => decide (k < b)) = true := by
    intro b
    cases k <;> simp
  have b1 := hv 800 (by decide)
  have b2 := hv 1600 (by decide)
  have b3 := hv 5000 (by decide)
  have b4 := hv 8000 (by decide)
  have b5 := hv 20000 (by decide)
  simp only [Rat.natCast_ofNat] at b1 b2 b3 b4 b5
  simp only [categoriesFt, category, List.find?_cons, List.find?_nil, hk, b1, b2, b3, b4, b5]
  simp only [Bool.or_eq_true]
  have hstep : ∀ (P : Prop) [Decidable P] (n : PyStr) (b : Nat) (d : Rat) (rest : Option (PyStr × Nat × Rat))
      (rest' : Option PyStr), rest.map (·.1) = rest' →
      Option.map (fun x : PyStr × Nat × Rat => x.1) (match decide P with | true => some (n, b, d) | false => rest) = if P then some n else rest' := by
    intro P _ n b d rest rest' e
    by_cases hP : P
    · simp [hP]
    · simp [hP, e]
  exact hstep _ _ _ _ _ _ (hstep _ _ _ _ _ _ (hstep _ _ _ _ _ _ (hstep _ _ _ _ _ _ (hstep _ _ _ _ _ _ rfl))))

theorem assessed {c : List (PyStr × Nat)} {wlo whi clo chi : Nat} {k : Core} {q : Option Rat}
    (hc : FromGroups c clo chi MetarRegExp.CLOUD Cloud.fromMetar k.clouds.list ∧ k.clouds.n = 0)
    (hw : FromGroups c wlo whi MetarRegExp.WEATHER (fun m => .ok (Weather.new m)) k.weathers.list)
    (hn : ∀ g i, (g, i) ∈ c → 10 ∉ g) (h : SameTests k.prevailing.vis q) :
    Assessed c wlo whi clo chi q k := by
  obtain ⟨ls, e, hl, hD⟩ := derived hc hn
  refine ⟨ls, e, hl, by rw [hD.rules, category_eq h], fun isSame => ?_⟩
  rw [hD.cavok isSame]
  have e1 : k.weathers.list = [] ↔ taken c wlo whi = [] := by
    unfold FromGroups at hw
    generalize taken c wlo whi = gs, k.weathers.list = ws at hw
    cases hw <;> simp
  have e2 : (∃ v, k.prevailing.vis = some v ∧ 10000 ≤ v.val) ↔ ∃ p, q = some p ∧ 10000 ≤ p := by
    have h1 := h.1
    have h2 := h.2 10000 (by decide)
    simp only [Rat.natCast_ofNat] at h2
    cases hv : k.prevailing.vis with
    | none =>
      rw [hv] at h1
      cases q with
      | none => simp
      | some p => simp at h1
    | some v =>
      rw [hv] at h1 h2
      cases q with
      | none => simp at h1
      | some p =>
        simp only [Below, Option.some.injEq, exists_eq_left'] at h2 ⊢
        rw [← Rat.not_lt, ← Rat.not_lt, h2]
  rw [e1, e2]

theorem statedAt {c : List (PyStr × Nat)} {i : Nat} {x : Visibility}
    (h : ReadAt c i visGrammar Visibility.none x) :
    (∃ q, VisStatedAt c i q) ∧ ∀ q, VisStatedAt c i q → SameTests x.vis q := by
  constructor
  · by_cases hg : ∃ g, (g, i) ∈ c
    · obtain ⟨g, hg⟩ := hg
      obtain ⟨w, hw, rfl⟩ := h.form g hg
      exact ⟨_, .inl ⟨w, hw, hg, rfl⟩⟩
    · exact ⟨none, .inr ⟨fun g h => hg ⟨g, h⟩, rfl⟩⟩
  · rintro q (⟨w, hw, hm, rfl⟩ | ⟨hg, rfl⟩)
    · exact sameTests_of hw (h.value w hw hm)
    · rw [h.absent hg]
      exact ⟨by simp [Visibility.none], by simp [Below, Visibility.none]⟩

/-- C104. The flight rules and the CAVOK analysis of a METAR, a trend and a TAF change are those of
the numbers written in it. -/
theorem C104_reports (db : Database) (clock : Clock) (code : PyStr) (a : Args) :
    (∀ r c, Metar.new db clock code a = .ok r →
      Decodes (Metar.handlers db (clock 2) a) (metarGroups r.body) c →
      (∃ q, VisStatedAt c 6 q) ∧ ∀ q, VisStatedAt c 6 q → Assessed c 11 13 14 17 q r.core) ∧
    (∀ r p text c, Metar.new db clock code a = .ok r → p ∈ r.weatherTrends.list →
      p.code = some text → Decodes ChangePeriod.handlers (bodyGroups text) c →
      (∃ q, VisStatedAt c 4 q) ∧ ∀ q, VisStatedAt c 4 q → Assessed c 5 7 8 11 q p.core) ∧
    (∀ r x c, Taf.new db clock code a = .ok r → x ∈ r.changes.list →
      Decodes ChangeForecasted.handlers (changeGroups x.code) c →
      (∃ q, VisStatedAt c 3 q) ∧ ∀ q, VisStatedAt c 3 q → Assessed c 4 6 7 10 q x.core) := by
  refine ⟨fun r c h hc => ?_, fun r p text c h hp ht hc => ?_, fun r x c h hx hc => ?_⟩
  · obtain ⟨h1, h2⟩ := statedAt ((C21_reports db clock code a).1 r c h hc).1
    obtain ⟨_, -, ho, hR, hn⟩ := Metar.new_decodes h hc
    exact ⟨h1, fun q hq => assessed hR.clouds hR.weathers.1 hn (h2 q hq)⟩
  · obtain ⟨h1, h2⟩ := statedAt ((C21_reports db clock code a).2.1 r p text c h hp ht hc)
    obtain ⟨_, _, -, ho, -, -, hR, -, hn⟩ := Metar.trend_decodes h hp ht hc
    exact ⟨h1, fun q hq => assessed hR.clouds hR.weathers.1 hn (h2 q hq)⟩
  · obtain ⟨h1, h2⟩ := statedAt ((C21_reports db clock code a).2.2 r x c h hx hc)
    obtain ⟨_, ho, -, -, hR, -, hn⟩ := Taf.change_decodes h hx hc
    exact ⟨h1, fun q hq => assessed hR.clouds hR.weathers.1 hn (h2 q hq)⟩

/-- C104. The same of a TAF, whose visibility is the one its group begins with. -/
theorem C104_taf (db : Database) (clock : Clock) (code : PyStr) (a : Args) (r : Taf)
    (c : List (PyStr × Nat)) (h : Taf.new db clock code a = .ok r)
    (hc : Decodes (Taf.handlers db (clock 1) a) (bodyGroups r.body) c) :
    (∀ g, (g, 8) ∈ c → ∃ (w : VisGroup) (rest : PyStr), tafVisGrammar.WF w ∧ g = w.text ++ rest ∧
      Assessed c 9 11 12 15 w.metresStated r.core) ∧
    (∀ w, tafVisGrammar.WF w → (w.text, 8) ∈ c → Assessed c 9 11 12 15 w.metresStated r.core) ∧
    ((∀ g, (g, 8) ∉ c) → Assessed c 9 11 12 15 none r.core) := by
  obtain ⟨t1, t2, t3⟩ := C21_taf db clock code a r h c hc
  obtain ⟨_, _, -, -, ho, hR, hn⟩ := Taf.new_decodes h hc
  refine ⟨fun g hg => ?_, fun w hw hg => ?_, fun hg => ?_⟩
  · obtain ⟨w, rest, hw, e, hs⟩ := t1 g hg
    exact ⟨w, rest, hw, e, assessed hR.clouds hR.weathers.1 hn (sameTests_of hw.1 hs)⟩
  · exact assessed hR.clouds hR.weathers.1 hn (sameTests_of hw.1 (t2 w hw hg))
  · refine assessed hR.clouds hR.weathers.1 hn ?_
    rw [t3 hg]
    exact ⟨by simp [Visibility.none], by simp [Below, Visibility.none]⟩

/-! ### Statute miles -/

/-- The visibility a group states when its miles are statute miles (1609.344 m). -/
def statuteMetres : VisGroup → Option Rat
  | .range r => if r.unit = .sm then some (r.amount * 1609.344) else (VisGroup.range r).metresStated
  | w => w.metresStated

/-- C104, the claim with statute miles is false. `3SM` is 4828 m and below the 5000 m of IFR, but
the library takes the mile for 1852 m and returns MVFR; `6SM` is 9656 m, and `should_be_cavok` is true. -/
theorem C104_statute_false :
    (¬ ∀ (clock : Clock) (code : PyStr) (r : Metar) (w : VisGroup), Metar.new sampleDb clock code {} = .ok r →
      w.WF → r.core.prevailing.code = some w.text → r.core.clouds.list = [] →
      r.core.flightRules = category none (statuteMetres w)) ∧
    ¬ ∀ (clock : Clock) (code : PyStr) (r : Metar) (w : VisGroup), Metar.new sampleDb clock code {} = .ok r →
      w.WF → r.core.prevailing.code = some w.text → (r.core.shouldBeCavok false).1 = .ok true →
      ∃ q, statuteMetres w = some q ∧ 10000 ≤ q := by
  constructor
  · intro h
    have e : (match Metar.new sampleDb sampleClock py!"METAR KJFK 151200Z 3SM" {} with
      | .ok r => decide (r.core.prevailing.code = some py!"3SM") && r.core.clouds.list.isEmpty &&
          decide (r.core.flightRules = some py!"MVFR")
      | .error _ => false) = true := by decide +kernel
    split at e
    · next r hr =>
      simp only [Bool.and_eq_true, decide_eq_true_eq, List.isEmpty_iff] at e
      have := h sampleClock _ r (.range ⟨.exact, some py!"3", false, none, .sm⟩) hr
        ⟨by rintro _ ⟨⟩; exact ⟨.inl rfl, by decide⟩, by rintro _ _ ⟨⟩⟩ (e.1.1.trans (by decide)) e.1.2
      rw [e.2] at this
      exact absurd this (by decide +kernel)
    · cases e
  · intro h
    have e : (match Metar.new sampleDb sampleClock py!"METAR KJFK 151200Z 6SM FEW060" {} with
      | .ok r => decide (r.core.prevailing.code = some py!"6SM") &&
          decide ((r.core.shouldBeCavok false).1 = .ok true)
      | .error _ => false) = true := by decide +kernel
    split at e
    · next r hr =>
      simp only [Bool.and_eq_true, decide_eq_true_eq] at e
      obtain ⟨q, h1, h2⟩ := h sampleClock _ r (.range ⟨.exact, some py!"6", false, none, .sm⟩) hr
        ⟨by rintro _ ⟨⟩; exact ⟨.inl rfl, by decide⟩, by rintro _ _ ⟨⟩⟩ (e.1.trans (by decide)) e.2
      have h3 : statuteMetres (.range ⟨.exact, some py!"6", false, none, .sm⟩) = some 9656.064 := by
        decide +kernel
      rw [h3] at h1
      cases h1
      exact absurd h2 (by decide +kernel)
    · cases e

/-! ### Instances -/

example : (VisGroup.range ⟨.exact, some py!"2", true, some (51, 52), .sm⟩).metresStated = some 5093 ∧
    category none (some 5093) = some py!"MVFR" ∧ category (some 9) (some 5093) = some py!"IFR" ∧
    category (some 30) (some 9999) = some py!"VFR" ∧ category none (some 20000) = none := by decide +kernel

example : (metarOk sampleClock py!"METAR KJFK 151200Z 2 3/4SM BKN009 TEMPO 0700 OVC030").map
      (fun r => (r.core.flightRules, r.weatherTrends.list.map fun p => p.core.flightRules)) =
      some (some py!"IFR", [some py!"VLIFR"]) ∧
    (tafOk sampleClock py!"TAF SKBO 151130Z 1512/1612 7000 FEW010 TEMPO 1514/1516 1/2SM").map
      (fun r => (r.core.flightRules, r.changes.list.map fun x => x.core.flightRules)) =
      some (some py!"MVFR", [some py!"LIFR"]) := by
  decide +kernel

end Verif.Props
