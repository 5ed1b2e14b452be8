import Verif.Lemmas.Account
import Verif.Props.Codes
import Verif.Props.UnknownWord

/-
C97: every group of a report is accounted for.
-/

namespace Verif.Props
open Spec

/-- C97, section. Every group is decoded or left unparsed, and not both; no two groups are decoded by
the same handler. -/
theorem C97_section {σ : Type} (hs : List (Handler σ)) (gs un : List PyStr) (c : List (PyStr × Nat))
    (hc : Decodes hs gs c) (hl : Leaves hs gs un) :
    gs.Perm (c.map (·.1) ++ un) ∧ c.Pairwise (fun x y => x.2 < y.2) :=
  ⟨decodes_perm hc hl, (decodes_order hc).1⟩

/-- C97, METAR. The codes of the attributes, in their order, are the decoded groups in the order of the
text: nothing is lost, repeated or moved. `t` is the type if the text has one; `ps` are the pressure
groups, of which the last is kept. -/
theorem C97_metar (db : Database) (clock : Clock) (code : PyStr) (a : Args) (r : Metar)
    (h : Metar.new db clock code a = .ok r) (c : List (PyStr × Nat))
    (hc : Decodes (Metar.handlers db (clock 2) a) (metarGroups r.body) c) :
    ∃ t ps, c.map (fun x => some (shown x.1)) = t ++ present (metarStated r ps) ∧
      (t = [r.type.code] ∨ t = [] ∧ r.type.code = some py!"METAR" ∧ ∀ g, (g, 0) ∉ c) ∧
      ps = codes c 19 20 ∧ ps.length ≤ 2 ∧ r.pressure.code = ps.getLast?.getD none := by
  obtain ⟨k0, k1, k2, k3, k4, k5, k6, k7, k8, k11, k14, k18, k19, k21, k22, k25, k26⟩ :=
    C53_metar_codes db clock code a r h c hc
  obtain ⟨hp, hlt⟩ := decodes_order hc
  refine ⟨codes c 0 0, codes c 19 20, ?_, ?_, rfl, ?_, k19⟩
  · rw [codes_first hp (n := 26) hlt]
    congr 1
    refine present_one hp k1 (by omega) <| present_one hp k2 (by omega) <|
      present_one hp k3 (by omega) <| present_one hp k4 (by omega) <| present_one hp k5 (by omega) <|
      present_one hp k6 (by omega) <| present_one hp k7 (by omega) <|
      present_many hp 10 k8 (by omega) (by omega) <| present_many hp 13 k11 (by omega) (by omega) <|
      present_many hp 17 k14 (by omega) (by omega) <| present_one hp k18 (by omega) <|
      present_many hp 20 rfl (by omega) (by omega) <| present_one hp k21 (by omega) <|
      present_many hp 24 k22 (by omega) (by omega) <| present_one hp k25 (by omega) <|
      present_end hp k26
  · rcases codes_type hp k0 with h | h
    · exact .inl h.1
    · exact .inr h
  · have := codes_split hp (lo := 19) 19 (hi := 20) (by omega) (by omega)
    rw [this]
    have h1 := taken_unique hp 19
    have h2 : (taken c (19 + 1) 20).length ≤ 1 := taken_unique hp 20
    simp only [codes, List.length_append, List.length_map]
    omega

/-- C97, METAR, text. If the words of the body are not joined with their neighbours and all are decoded,
the type among them, with one pressure group at most, the body is rebuilt from the codes of the
attributes. -/
theorem C97_metar_text (db : Database) (clock : Clock) (code : PyStr) (a : Args) (r : Metar)
    (h : Metar.new db clock code a = .ok r) (ws : List PyStr) (hne : ws ≠ []) (hb : r.body = join [32] ws)
    (hw : ∀ x ∈ ws, Solid x ∧ 95 ∉ x ∧ Loose x)
    (hl : Leaves (Metar.handlers db (clock 2) a) ws []) {c : List (PyStr × Nat)}
    (hd : Decodes (Metar.handlers db (clock 2) a) ws c)
    (h0 : ∃ g, (g, 0) ∈ c) (hp : (taken c 19 20).length ≤ 1) :
    ws.map some = r.type.code :: present (metarStated r [r.pressure.code]) ∧
      some r.body = sideBySide (r.type.code :: present (metarStated r [r.pressure.code])) := by
  have hg := metarGroups_loose hne (fun x h => (hw x h).1) fun x h => (hw x h).2.2
  obtain ⟨t, ps, e, ht, eps, -, hps⟩ := C97_metar db clock code a r h c (by rw [hb, hg]; exact hd)
  have hc : c.map (·.1) = ws := by
    have h1 := decodes_perm hd hl
    rw [List.append_nil] at h1
    exact (kept_sublist hd).eq_of_length h1.length_eq.symm
  have hs : c.map (fun x => some (shown x.1)) = ws.map some := by
    rw [← hc, List.map_map]
    apply List.map_congr_left
    intro x hx
    have hx : x.1 ∈ ws := hc ▸ List.mem_map_of_mem hx
    show some (shown x.1) = some x.1
    rw [shown_plain (hw _ hx).2.1]
  have main : ws.map some = r.type.code :: present (metarStated r [r.pressure.code]) := by
    rw [← hs, e]
    have ht : t = [r.type.code] := by
      rcases ht with h | ⟨-, -, h⟩
      · exact h
      · exact absurd h0.choose_spec (h _)
    rw [ht, List.singleton_append]
    congr 1
    have : present ps = present [r.pressure.code] := by
      have hlen : ps.length ≤ 1 := by rw [eps]; simpa [codes] using hp
      match ps, hlen, hps with
      | [], _, hps => rw [hps]; rfl
      | [p], _, hps => rw [hps]; rfl
      | _ :: _ :: _, hlen, _ => simp at hlen
    unfold metarStated
    unfold present at this ⊢
    simp only [List.filter_cons, List.filter_append] at this ⊢
    rw [this]
  refine ⟨main, ?_⟩
  rw [← main, hb, sideBySide_join]

/-- C97, TAF. `ts` are the temperature groups; those of the two lists are among them, each in its
order. -/
theorem C97_taf (db : Database) (clock : Clock) (code : PyStr) (a : Args) (r : Taf)
    (h : Taf.new db clock code a = .ok r) (c : List (PyStr × Nat))
    (hc : Decodes (Taf.handlers db (clock 1) a) (bodyGroups r.body) c) :
    ∃ t ts, c.map (fun x => some (shown x.1)) = t ++ present (tafStated r ts) ∧
      (t = [r.type.code] ∨ t = [] ∧ r.type.code = some py!"TAF" ∧ ∀ g, (g, 0) ∉ c) ∧
      ts.Perm (r.maxTemperatures.list.map TafTemperature.code ++ r.minTemperatures.list.map TafTemperature.code) ∧
      (r.maxTemperatures.list.map TafTemperature.code).Sublist ts ∧
      (r.minTemperatures.list.map TafTemperature.code).Sublist ts := by
  obtain ⟨k0, k1, k2, k3, k4, k5, k6, k7, k8, k9, k12, kx, kn⟩ := C53_taf_codes db clock code a r h c hc
  obtain ⟨hp, hlt⟩ := decodes_order hc
  refine ⟨codes c 0 0, codes c 16 19, ?_, ?_, ?_, ?_, ?_⟩
  · rw [codes_first hp (n := 19) hlt]
    congr 1
    refine present_one hp k1 (by omega) <| present_one hp k2 (by omega) <|
      present_one hp k3 (by omega) <| present_one hp k4 (by omega) <| present_one hp k5 (by omega) <|
      present_one hp k6 (by omega) <| present_one hp k7 (by omega) <| present_one hp k8 (by omega) <|
      present_many hp 11 k9 (by omega) (by omega) <| present_many hp 15 k12 (by omega) (by omega) <|
      present_last rfl
  · rcases codes_type hp k0 with h | h
    · exact .inl h.1
    · exact .inr h
  · have hk : ∀ g ∈ taken c 16 19, (g[1]?).getD 0 = 88 ∨ (g[1]?).getD 0 = 78 := by
      obtain ⟨_, _, -, -, -, hR, -⟩ := Taf.new_decodes h hc
      obtain ⟨ts, h1, -, -⟩ := hR.temperatures
      unfold FromGroups at h1
      generalize taken c 16 19 = l at h1
      clear hc
      induction h1 with
      | nil => simp
      | @cons g x gs xs hx _ ih =>
        obtain ⟨m, hm, hx⟩ := hx
        have e1 := (temperature_kind hm hx).1
        intro y hy
        rcases List.mem_cons.1 hy with rfl | hy
        · rcases e1 with ⟨e, -⟩ | ⟨e, -⟩
          · exact .inl (by rw [e]; rfl)
          · exact .inr (by rw [e]; rfl)
        · exact ih y hy
    rw [kx, kn, ← List.map_append]
    unfold codes
    refine List.Perm.map _ ?_
    have e : (taken c 16 19).filter (fun g => decide ((g[1]?).getD 0 = 78)) =
        (taken c 16 19).filter (fun g => !decide ((g[1]?).getD 0 = 88)) := by
      apply List.filter_congr
      intro g hg
      rcases hk g hg with h | h
      · simp [h]
      · simp [h]
    rw [e]
    exact (List.filter_append_perm _ _).symm
  · rw [kx]
    exact (List.filter_sublist).map _
  · rw [kn]
    exact (List.filter_sublist).map _

/-- C97, trend of a METAR: the words of the indicator, and the other groups. -/
theorem C97_trend (db : Database) (clock : Clock) (code : PyStr) (a : Args) (r : Metar)
    (h : Metar.new db clock code a = .ok r) (p : ChangePeriod) (hp : p ∈ r.weatherTrends.list)
    (text : PyStr) (ht : p.code = some text) (c : List (PyStr × Nat))
    (hc : Decodes ChangePeriod.handlers (bodyGroups text) c) :
    ∃ ind rest, c.map (·.1) = ind ++ rest ∧ p.indicator.code = indicatorCode ind ∧
      rest.map (fun g => some (shown g)) = present (forecastStated p.core) := by
  obtain ⟨k0, k3, k4, k5, k8⟩ := C53_trend_codes db clock code a r h p hp text ht c hc
  obtain ⟨hw, hlt⟩ := decodes_order hc
  refine ⟨taken c 0 2, taken c 3 11, ?_, ?_, ?_⟩
  · rw [← taken_all (n := 11) hlt, taken_split hw (mid := 2) (by omega) (by omega)]
  · rw [taken_split hw (mid := 0) (by omega) (by omega)]
    have hu := taken_unique hw 0
    rcases k0 with ⟨g, hg, e⟩ | ⟨hg, e1, e⟩
    · have hm := taken_at_mem.2 hg
      match h0 : taken c 0 0, hu, hm with
      | [], _, hm => simp at hm
      | [x], _, hm =>
        simp only [List.mem_singleton] at hm
        rw [e, hm]; rfl
      | _ :: _ :: _, hu, _ => simp at hu
    · match h0 : taken c 0 0 with
      | [] =>
        show _ = indicatorCode (taken c 1 2)
        rw [e1, e]; rfl
      | x :: l => exact absurd (taken_at_mem.1 (h0 ▸ List.mem_cons_self : x ∈ taken c 0 0)) (hg x)
  · exact present_one hw k3 (by omega) <| present_one hw k4 (by omega) <|
      present_many hw 7 k5 (by omega) (by omega) <| present_last k8

/-- C97, change of a TAF: the word of the indicator with that of the period (which leaves no trace in
the code of an `FM` indicator), and the other groups. -/
theorem C97_change (db : Database) (clock : Clock) (code : PyStr) (a : Args) (r : Taf)
    (h : Taf.new db clock code a = .ok r) (x : ChangeForecasted) (hx : x ∈ r.changes.list)
    (c : List (PyStr × Nat))
    (hc : Decodes ChangeForecasted.handlers (changeGroups x.code) c) :
    ∃ ind rest, c.map (·.1) = ind ++ rest ∧
      (ind = [] ∧ x.indicator.code = none ∨
        ∃ g v, ind = g :: v ∧ v.length ≤ 1 ∧ x.indicator.code =
          if startsWith g py!"FM" then some g else some (join [32] (ind.map shown))) ∧
      rest.map (fun g => some (shown g)) = present (forecastStated x.core) := by
  obtain ⟨k0, k2, k3, k4, k7⟩ := C53_change_codes db clock code a r h x hx c hc
  obtain ⟨hw, hlt⟩ := decodes_order hc
  have hu := taken_unique hw 0
  have hv := taken_unique hw 1
  have single : ∀ {i g}, (g, i) ∈ c → taken c i i = [g] := by
    intro i g hg
    have hm := taken_at_mem.2 hg
    have hu := taken_unique hw i
    match h0 : taken c i i, hu, hm with
    | [], _, hm => simp at hm
    | [x], _, hm =>
      simp only [List.mem_singleton] at hm
      rw [hm]
    | _ :: _ :: _, hu, _ => simp at hu
  have nil : ∀ {i}, (∀ g, (g, i) ∉ c) → taken c i i = [] := by
    intro i hg
    match h0 : taken c i i with
    | [] => rfl
    | x :: l => exact absurd (taken_at_mem.1 (h0 ▸ List.mem_cons_self : x ∈ taken c i i)) (hg x)
  refine ⟨taken c 0 1, taken c 2 10, ?_, ?_, ?_⟩
  · rw [← taken_all (n := 10) hlt, taken_split hw (mid := 1) (by omega) (by omega)]
  · rw [taken_split hw (mid := 0) (by omega) (by omega)]
    rcases k0 with ⟨g, hg, hf, e⟩ | ⟨g, hg, hf, ⟨v, hv, e⟩ | ⟨hv, e⟩⟩ | ⟨h0, h1, e⟩
    · rw [single hg]
      exact .inr ⟨g, _, rfl, hv, by rw [if_pos hf, e]⟩
    · rw [single hg, single hv]
      exact .inr ⟨g, [v], rfl, by simp, by rw [if_neg (by simp [hf]), e]; simp [join]⟩
    · rw [single hg, nil hv]
      exact .inr ⟨g, [], rfl, by simp, by rw [if_neg (by simp [hf]), e]; simp [join]⟩
    · rw [nil h0, nil h1]
      exact .inl ⟨rfl, e⟩
  · exact present_one hw k2 (by omega) <| present_one hw k3 (by omega) <|
      present_many hw 6 k4 (by omega) (by omega) <| present_last k7

/-! ### Concrete cases -/

/-- The hypotheses of `C97_metar_text`, and the body of the report. -/
example : (∀ x ∈ [py!"METAR", py!"SKBO", py!"151200Z", py!"10005KT", py!"9999", py!"-RA", py!"FEW020",
        py!"20/10", py!"Q1013"], Solid x ∧ 95 ∉ x ∧ Loose x) ∧
    Leaves (Metar.handlers sampleDb (sampleClock 2) {}) [py!"METAR", py!"SKBO", py!"151200Z", py!"10005KT",
      py!"9999", py!"-RA", py!"FEW020", py!"20/10", py!"Q1013"] [] ∧
    Decodes (Metar.handlers sampleDb (sampleClock 2) {}) [py!"METAR", py!"SKBO", py!"151200Z", py!"10005KT",
      py!"9999", py!"-RA", py!"FEW020", py!"20/10", py!"Q1013"]
      [(py!"METAR", 0), (py!"SKBO", 1), (py!"151200Z", 2), (py!"10005KT", 4), (py!"9999", 6),
       (py!"-RA", 11), (py!"FEW020", 14), (py!"20/10", 18), (py!"Q1013", 19)] ∧
    (match Metar.new sampleDb sampleClock py!"METAR SKBO 151200Z 10005KT 9999 -RA FEW020 20/10 Q1013 NOSIG" {}
      with
      | .ok r => decide (some r.body =
          sideBySide (r.type.code :: present (metarStated r [r.pressure.code])) ∧
          r.body = py!"METAR SKBO 151200Z 10005KT 9999 -RA FEW020 20/10 Q1013")
      | .error _ => false) = true := by
  refine ⟨?_, ?_, ?_, ?_⟩
  · intro x hx
    refine ⟨?_, ?_, ?_⟩
    · revert x; unfold Solid; decide +kernel
    · revert x; decide +kernel
    · apply loose_of
      · revert x; decide +kernel
      · revert x; decide +kernel
  · have : Decodes (Metar.handlers sampleDb (sampleClock 2) {}) [py!"METAR", py!"SKBO", py!"151200Z",
        py!"10005KT", py!"9999", py!"-RA", py!"FEW020", py!"20/10", py!"Q1013"]
        [(py!"METAR", 0), (py!"SKBO", 1), (py!"151200Z", 2), (py!"10005KT", 4), (py!"9999", 6),
         (py!"-RA", 11), (py!"FEW020", 14), (py!"20/10", 18), (py!"Q1013", 19)] := by
      rw [decodes_iff]; decide +kernel
    exact (decodes_kept this).2
  · rw [decodes_iff]; decide +kernel
  · decide +kernel

/-- Of two pressures the first leaves no trace. -/
example : (match Metar.new sampleDb sampleClock py!"METAR SKBO 151200Z Q1013 A2992" {} with
    | .ok r => decide (r.unparsed = [] ∧ r.pressure.code = some py!"A2992" ∧
        present (metarStated r [r.pressure.code]) = [some py!"SKBO", some py!"151200Z", some py!"A2992"])
    | .error _ => false) = true := by decide +kernel

/-- A TAF with temperatures in mixed order, and a change. -/
example : (match Taf.new sampleDb sampleClock
      py!"TAF SKBO 151200Z 1512/1612 9999 TN08/1610Z TX20/1518Z TN09/1611Z TEMPO 1514/1516 2000 RA" {} with
    | .ok r => decide (present (tafStated r [some py!"TN08/1610Z", some py!"TX20/1518Z", some py!"TN09/1611Z"]) =
          [some py!"SKBO", some py!"151200Z", some py!"1512/1612", some py!"9999", some py!"TN08/1610Z",
           some py!"TX20/1518Z", some py!"TN09/1611Z"] ∧
        r.maxTemperatures.list.map TafTemperature.code = [some py!"TX20/1518Z"] ∧
        r.changes.list.map (fun x => (x.indicator.code, present (forecastStated x.core))) =
          [(some py!"TEMPO 1514/1516", [some py!"2000", some py!"RA"])])
    | .error _ => false) = true := by decide +kernel

end Verif.Props
