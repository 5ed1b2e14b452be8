import Verif.Lemmas.Complete
import Verif.Props.Report
import Verif.Props.Parse

/-
C87, C88: reports that are read completely, and reports that are cut short.
-/

namespace Verif.Props

variable {σ : Type}

/-! ### C87 -/

/-- C87. A section is read completely exactly when its groups fit the order of the patterns: taking the
first applicable handler at every group misses no way of reading all of them. -/
theorem C87_section (hs : List (Handler σ)) (text : PyStr) (s s' : σ) (un : List PyStr)
    (h : parseSection hs text s = .ok (s', un)) :
    un = [] ↔ Spec.Fits (hs.map Handler.regexp) (splitC 32 text) := by
  obtain ⟨asg, out, h1, -, h3, h4⟩ := C05_group_conservation hs text s
  refine leaves_fits ⟨asg, h1, h4, ?_⟩
  rw [h3] at h
  cases out with
  | error e => simp [Except.map] at h
  | ok s1 =>
    simp only [Except.map, Except.ok.injEq, Prod.mk.injEq] at h
    exact h.2.symm

/-- C87. A METAR has no unparsed groups exactly when its body and each of its trends fit the order of
the groups. -/
theorem C87_metar (db : Database) (clock : Clock) (code : PyStr) (a : Args) (r : Metar)
    (h : Metar.new db clock code a = .ok r) :
    r.unparsed = [] ↔ Spec.Fits Spec.metarPatterns (Spec.metarGroups r.body) ∧
      ∀ p ∈ r.weatherTrends.list, ∃ text, p.code = some text ∧
        Spec.Fits Spec.trendPatterns (Spec.bodyGroups text) := by
  obtain ⟨⟨un, h1, h2⟩, h3⟩ := C08_metar_unparsed db clock code a r h
  rw [h2, List.append_eq_nil_iff, leaves_fits h1, List.flatMap_eq_nil_iff]
  refine and_congr Iff.rfl (forall_congr' fun p => forall_congr' fun hp => ?_)
  obtain ⟨text, e, h4⟩ := h3 p hp
  rw [leaves_fits h4]
  constructor
  · exact fun h => ⟨text, e, h⟩
  · rintro ⟨text', e', h⟩
    rw [e, Option.some.injEq] at e'
    subst e'
    exact h

/-- C87. The same for a TAF and its changes. -/
theorem C87_taf (db : Database) (clock : Clock) (code : PyStr) (a : Args) (r : Taf)
    (h : Taf.new db clock code a = .ok r) :
    r.unparsed = [] ↔ Spec.Fits Spec.tafPatterns (Spec.bodyGroups r.body) ∧
      ∀ c ∈ r.changes.list, Spec.Fits Spec.changePatterns (Spec.changeGroups c.code) := by
  obtain ⟨⟨un, h1, h2⟩, h3⟩ := C08_taf_unparsed db clock code a r h
  rw [h2, List.append_eq_nil_iff, leaves_fits h1, List.flatMap_eq_nil_iff]
  exact and_congr Iff.rfl (forall_congr' fun c => forall_congr' fun hc => leaves_fits (h3 c hc))

/-- C87. With `truncate` a METAR is refused with `ParserError` exactly when it can be read without
`truncate` and its body or one of its trends does not fit. -/
theorem C87_truncate_metar (db : Database) (clock : Clock) (code : PyStr) (y m : Option Int) :
    (∃ msg, Metar.new db clock code ⟨y, m, true⟩ = .error (.parser msg)) ↔
      ∃ r, Metar.new db clock code ⟨y, m, false⟩ = .ok r ∧
        ¬ (Spec.Fits Spec.metarPatterns (Spec.metarGroups r.body) ∧
          ∀ p ∈ r.weatherTrends.list, ∃ text, p.code = some text ∧
            Spec.Fits Spec.trendPatterns (Spec.bodyGroups text)) := by
  obtain ⟨h1, h2⟩ := C07_truncate_metar db clock code y m
  cases e : Metar.new db clock code ⟨y, m, false⟩ with
  | error x =>
    obtain ⟨h3, h4⟩ := h1 x e
    rw [h3]
    simp only [Except.error.injEq, reduceCtorEq, false_and, exists_false, iff_false, not_exists]
    exact h4
  | ok r =>
    obtain ⟨h3, h4⟩ := h2 r e
    simp only [Except.ok.injEq, exists_eq_left', ← C87_metar db clock code _ r e]
    by_cases hu : r.unparsed = []
    · simp [h3 hu, hu]
    · simp [h4 hu, hu]

theorem C87_truncate_taf (db : Database) (clock : Clock) (code : PyStr) (y m : Option Int) :
    (∃ msg, Taf.new db clock code ⟨y, m, true⟩ = .error (.parser msg)) ↔
      ∃ r, Taf.new db clock code ⟨y, m, false⟩ = .ok r ∧
        ¬ (Spec.Fits Spec.tafPatterns (Spec.bodyGroups r.body) ∧
          ∀ c ∈ r.changes.list, Spec.Fits Spec.changePatterns (Spec.changeGroups c.code)) := by
  obtain ⟨h1, h2⟩ := C07_truncate_taf db clock code y m
  cases e : Taf.new db clock code ⟨y, m, false⟩ with
  | error x =>
    obtain ⟨h3, h4⟩ := h1 x e
    rw [h3]
    simp only [Except.error.injEq, reduceCtorEq, false_and, exists_false, iff_false, not_exists]
    exact h4
  | ok r =>
    obtain ⟨h3, h4⟩ := h2 r e
    simp only [Except.ok.injEq, exists_eq_left', ← C87_taf db clock code _ r e]
    by_cases hu : r.unparsed = []
    · simp [h3 hu, hu]
    · simp [h4 hu, hu]

/-- C87, the stronger claim is false. The unparsed groups need not be as few as possible: `COR` before
the station takes the place of the modifier, and station and time are left over, though all groups but
`COR` fit. -/
theorem C87_not_fewest_counterexample :
    (∃ r, Metar.new sampleDb sampleClock py!"METAR COR SKBO 151200Z 10005KT" {} = .ok r ∧
      r.unparsed = [py!"SKBO", py!"151200Z"]) ∧
    Spec.Fits Spec.metarPatterns [py!"METAR", py!"SKBO", py!"151200Z", py!"10005KT"] := by
  constructor
  · have hd : (match Metar.new sampleDb sampleClock py!"METAR COR SKBO 151200Z 10005KT" {} with
        | .ok r => decide (r.unparsed = [py!"SKBO", py!"151200Z"])
        | .error _ => false) = true := by decide +kernel
    cases e : Metar.new sampleDb sampleClock py!"METAR COR SKBO 151200Z 10005KT" {} with
    | error x => rw [e] at hd; simp at hd
    | ok r => rw [e] at hd; exact ⟨r, rfl, of_decide_eq_true hd⟩
  · refine ⟨[MetarRegExp.TYPE, MetarRegExp.STATION, MetarRegExp.TIME, MetarRegExp.WIND], ?_,
      .cons (by decide +kernel) (.cons (by decide +kernel) (.cons (by decide +kernel)
        (.cons (by decide +kernel) .nil)))⟩
    exact .cons_cons _ (.cons_cons _ (.cons_cons _ (.cons _ (.cons_cons _ (List.nil_sublist _)))))

/-- Case: a METAR with a trend and a TAF with a change, both read completely; and a METAR refused with
`truncate`. -/
example : (match Metar.new sampleDb sampleClock
      py!"METAR SKBO 151200Z 10005KT 9999 FEW010 SCT020 18/12 Q1025 TEMPO 3000 BR" ⟨none, none, true⟩ with
    | .ok r => decide (r.unparsed = [] ∧ r.weatherTrends.list.length = 1)
    | .error _ => false) = true := by decide +kernel

example : (match Taf.new sampleDb sampleClock
      py!"TAF SKBO 151100Z 1512/1612 10005KT 9999 FEW010 TX20/1518Z BECMG 1514/1516 3000 BR"
      ⟨none, none, true⟩ with
    | .ok r => decide (r.unparsed = [] ∧ r.changes.list.length = 1)
    | .error _ => false) = true := by decide +kernel

example : (match Metar.new sampleDb sampleClock py!"METAR SKBO 151200Z 18/12 10005KT" ⟨none, none, true⟩ with
    | .error (.parser _) => true
    | _ => false) = true := by decide +kernel

/-! ### C88 -/

/-- C88. Reading goes from left to right: what is decoded, and what is left over, of a front part of the
groups begins what is decoded, and left over, of all of them. -/
theorem C88_section (hs : List (Handler σ)) (gs more : List PyStr) (c c' : List (PyStr × Nat))
    (un un' : List PyStr) (hc : Spec.Decodes hs gs c) (hc' : Spec.Decodes hs (gs ++ more) c')
    (hu : Spec.Leaves hs gs un) (hu' : Spec.Leaves hs (gs ++ more) un') : c <+: c' ∧ un <+: un' :=
  ⟨decodes_append hc hc', leaves_append hu hu'⟩

/-- C88. A METAR whose body was cut short after some group: all attributes up to the last group decoded
are as in the whole report, also those that are missing, and the lists begin in the same way. -/
theorem C88_metar (db : Database) (clock : Clock) (code code' : PyStr) (a : Args) (r r' : Metar)
    (h : Metar.new db clock code a = .ok r) (h' : Metar.new db clock code' a = .ok r')
    (hm : Spec.metarGroups r.body <+: Spec.metarGroups r'.body) (c : List (PyStr × Nat))
    (hc : Spec.Decodes (Metar.handlers db (clock 2) a) (Spec.metarGroups r.body) c)
    (g : PyStr) (i : Nat) (hg : (g, i) ∈ c) : Spec.MetarCut i r r' := by
  obtain ⟨more, e⟩ := hm
  exact Metar.cut h h' e.symm hc hg

/-- C88. The same for a TAF. -/
theorem C88_taf (db : Database) (clock : Clock) (code code' : PyStr) (a : Args) (r r' : Taf)
    (h : Taf.new db clock code a = .ok r) (h' : Taf.new db clock code' a = .ok r')
    (hm : Spec.bodyGroups r.body <+: Spec.bodyGroups r'.body) (c : List (PyStr × Nat))
    (hc : Spec.Decodes (Taf.handlers db (clock 1) a) (Spec.bodyGroups r.body) c)
    (g : PyStr) (i : Nat) (hg : (g, i) ∈ c) : Spec.TafCut i r r' := by
  obtain ⟨more, e⟩ := hm
  exact Taf.cut h h' e.symm hc hg

/-- Case: a METAR cut short after its first cloud layer (position 14), with further layers, temperatures
and a trend in the whole report. -/
example : (match Metar.new sampleDb sampleClock py!"METAR SKBO 151200Z 10005KT 9999 FEW010" {},
      Metar.new sampleDb sampleClock
        py!"METAR SKBO 151200Z 10005KT 9999 FEW010 SCT020 18/12 Q1025 TEMPO 3000 BR" {} with
    | .ok r, .ok r' =>
      decide (Spec.metarGroups r.body <+: Spec.metarGroups r'.body) &&
      decide ((py!"FEW010", 14) ∈ Spec.consumed (Spec.metarGroups r.body)
        (assign (Metar.handlers sampleDb (sampleClock 2) {}) 0 (Spec.metarGroups r.body)))
    | _, _ => false) = true := by decide +kernel

example : (match Taf.new sampleDb sampleClock py!"TAF SKBO 151100Z 1512/1612 10005KT 9999" {},
      Taf.new sampleDb sampleClock
        py!"TAF SKBO 151100Z 1512/1612 10005KT 9999 FEW010 TX20/1518Z BECMG 1514/1516 3000 BR" {} with
    | .ok r, .ok r' =>
      decide (Spec.bodyGroups r.body <+: Spec.bodyGroups r'.body) &&
      decide ((py!"9999", 8) ∈ Spec.consumed (Spec.bodyGroups r.body)
        (assign (Taf.handlers sampleDb (sampleClock 1) {}) 0 (Spec.bodyGroups r.body)))
    | _, _ => false) = true := by decide +kernel

end Verif.Props
