import Verif.Props.RoundWords
import Verif.Lemmas.Matched

/-
The words of a METAR record and the groups they are read as.
-/

namespace Verif.Props
open Spec MetarRegExp

/-- The groups of a record: the words, with those of the visibility and of a wind shear joined. -/
def groupsOf (r : MetarRecord) : List PyStr :=
  r.front ++ (r.early ++ (r.vis.toList.map VisGroup.text ++ (r.middle ++
    (r.shears.map (fun s => s.group.text) ++ r.late))))

theorem digit_noSpace {c : Nat} (h : isDigit c = true) : isSpace c = false :=
  CC.test_sound (k := .digit) (cc := .space) (by decide +kernel) h

theorem _root_.Verif.Quiet.unbarred {s : PyStr} (h : Quiet s) (hne : s ≠ []) : Unbarred s ∧ ¬ Opens metarWords s := by
  refine ⟨⟨⟨hne, fun c hc => ⟨(h.chars c hc).1, (h.chars c hc).2.1⟩⟩, fun h' => (h.chars 124 h').2.2 rfl⟩, ?_⟩
  rintro ⟨kw, hk, hp⟩
  exact h.opens kw (List.mem_append_left _ hk) hp

/-- What the words of a record have in common. -/
structure Tame (s : PyStr) : Prop where
  quiet : Quiet s
  noMiles : ¬ Miles s
  ne : s ≠ []

theorem _root_.Verif.Fact.tame {re : RE} {s : PyStr} (h : Fact re s) (hr : re ∈ milelessPatterns) (hne : s ≠ []) :
    Tame s :=
  ⟨h.quiet (by
    simp only [milelessPatterns, quietPatterns, List.mem_cons, List.not_mem_nil, or_false] at hr ⊢
    rcases hr with rfl | rfl | rfl | rfl | rfl | rfl | rfl | rfl <;> simp), h.noMiles hr, hne⟩

theorem early_fact {r : MetarRecord} (h : r.WF) {w : PyStr} (hw : w ∈ r.early) :
    ∃ re ∈ [MODIFIER, WIND, WIND_VARIATION], Fact re w := by
  simp only [MetarRecord.early, List.mem_append, Option.mem_toList, List.mem_map] at hw
  rcases hw with hw | ⟨g, hg, rfl⟩ | ⟨g, hg, rfl⟩
  · exact ⟨_, by simp, modifier_fact (h.modifier _ hw)⟩
  · exact ⟨_, by simp, wind_fact (h.wind g hg)⟩
  · exact ⟨_, by simp, variation_fact (h.variation g hg)⟩

theorem early_quiet {r : MetarRecord} (h : r.WF) {w : PyStr} (hw : w ∈ r.early) :
    Quiet w ∧ w.all isDigit = false := by
  obtain ⟨re, hr, hf⟩ := early_fact h hw
  simp only [List.mem_cons, List.not_mem_nil, or_false] at hr
  rcases hr with rfl | rfl | rfl
  · exact ⟨hf.quiet (by simp [quietPatterns]), hf.noDigits (by simp)⟩
  · exact ⟨hf.quiet (by simp [quietPatterns]), hf.noDigits (by simp)⟩
  · exact ⟨hf.quiet (by simp [quietPatterns]), hf.noDigits (by simp)⟩

theorem middle_tame {r : MetarRecord} (h : r.WF) {w : PyStr} (hw : w ∈ r.middle) : Tame w := by
  simp only [MetarRecord.middle, List.mem_append, List.mem_map, Option.mem_toList] at hw
  rcases hw with ⟨g, hg, rfl⟩ | ⟨g, hg, rfl⟩ | ⟨g, hg, rfl⟩ | ⟨g, hg, rfl⟩ | ⟨g, hg, rfl⟩ | ⟨g, hg, rfl⟩ | ⟨g, hg, rfl⟩
  · have := minVis_fact (h.minVis g hg).1
    exact this.tame (by simp [milelessPatterns]) (this.ne (by decide +kernel))
  · have := range_fact (h.ranges.2 g hg)
    exact this.tame (by simp [milelessPatterns]) (this.ne (by decide +kernel))
  · exact (weather_fact g).tame (by simp [milelessPatterns]) (h.weathers.2 g hg)
  · have := layer_fact (h.clouds.2 g hg)
    exact this.tame (by simp [milelessPatterns]) (this.ne (by decide +kernel))
  · have := temp_fact (h.temps g hg)
    exact this.tame (by simp [milelessPatterns]) (this.ne (by decide +kernel))
  · have := press_fact (h.pressures.2 g hg).1
    exact this.tame (by simp [milelessPatterns]) (this.ne (by decide +kernel))
  · exact ⟨recent_quiet g, recent_noMiles g, by simp [RecentGroup.text]⟩

theorem late_tame {r : MetarRecord} (h : r.WF) {w : PyStr} (hw : w ∈ r.late) : Tame w := by
  simp only [MetarRecord.late, List.mem_append, List.mem_map, Option.mem_toList] at hw
  rcases hw with ⟨g, hg, rfl⟩ | ⟨g, hg, rfl⟩
  · have := sea_fact (h.sea g hg)
    exact this.tame (by simp [milelessPatterns]) (this.ne (by decide +kernel))
  · have := rwyState_fact (h.state g hg)
    exact this.tame (by simp [milelessPatterns]) (this.ne (by decide +kernel))

theorem vis_quiet {v : VisGroup} (h : v.WF) : Quiet v.text ∧ v.text ≠ [] :=
  have := vis_fact h
  ⟨this.quiet (by simp [quietPatterns]), this.ne (by decide +kernel)⟩

/-! ### The words -/

theorem opens_head {kws : List PyStr} {w : PyStr} (h : ∀ kw ∈ kws, kw ≠ [] ∧ kw.head? ≠ w.head?) :
    ¬ Opens kws w := by
  rintro ⟨kw, hk, t, rfl⟩
  obtain ⟨h1, h2⟩ := h kw hk
  cases kw with
  | nil => exact h1 rfl
  | cons c kw => simp at h2

theorem words_unbarred {v : VisGroup} (h : v.WF) {w : PyStr} (hw : w ∈ v.words) :
    Unbarred w ∧ ¬ Opens metarWords w := by
  unfold VisGroup.words at hw
  split at hw
  · next ds a b =>
    obtain ⟨h1, h2⟩ := h
    obtain ⟨hl, hd⟩ := h1 ds rfl
    obtain ⟨ha, hb⟩ := h2 a b rfl
    have hdig : ∀ {c}, isDigit c = true → ∀ kw ∈ metarWords, kw ≠ [] ∧ kw.head? ≠ some c := by
      intro c hc kw hk
      have : ∀ kw ∈ metarWords, kw ≠ [] ∧ ∀ c, kw.head? = some c → isDigit c = false := by decide +kernel
      refine ⟨(this kw hk).1, fun e => ?_⟩
      have := (this kw hk).2 c e
      rw [this] at hc
      cases hc
    have hch : ∀ {c}, isDigit c = true → isSpace c = false ∧ c ≠ 61 ∧ c ≠ 124 := by
      intro c hc
      refine ⟨digit_noSpace hc, ?_, ?_⟩
      · rintro rfl; exact absurd hc (by decide +kernel)
      · rintro rfl; exact absurd hc (by decide +kernel)
    simp only [List.mem_cons, List.not_mem_nil, or_false] at hw
    rcases hw with rfl | rfl
    · have hne : w ≠ [] := by rintro rfl; simp at hl
      refine ⟨⟨⟨hne, fun c hc => ⟨(hch (hd c hc)).1, (hch (hd c hc)).2.1⟩⟩,
        fun h' => (hch (hd _ h')).2.2 rfl⟩, opens_head ?_⟩
      obtain ⟨c, t, rfl⟩ := List.exists_cons_of_ne_nil hne
      exact hdig (hd c (by simp))
    · have hall : ∀ c ∈ a :: py!"/" ++ b :: py!"SM", isSpace c = false ∧ c ≠ 61 ∧ c ≠ 124 := by
        intro c hc
        simp only [List.cons_append, List.nil_append, List.mem_cons, List.not_mem_nil, or_false] at hc
        rcases hc with rfl | rfl | rfl | rfl | rfl
        · exact hch ha
        · decide
        · exact hch hb
        · decide
        · decide
      refine ⟨⟨⟨by simp, fun c hc => ⟨(hall c hc).1, (hall c hc).2.1⟩⟩, fun h' => (hall _ h').2.2 rfl⟩,
        opens_head ?_⟩
      exact hdig ha
  · rw [List.mem_singleton] at hw
    subst hw
    exact (vis_quiet h).1.unbarred (vis_quiet h).2

theorem runway_chars {r : RunwayCode} (h : r.WF) : ∀ c ∈ r.text, isSpace c = false ∧ c ≠ 61 ∧ c ≠ 124 := by
  intro c hc
  simp only [RunwayCode.text, List.mem_append] at hc
  rcases hc with hc | hc
  · have hd := h.2 c hc
    refine ⟨digit_noSpace hd, ?_, ?_⟩
    · rintro rfl; exact absurd hd (by decide +kernel)
    · rintro rfl; exact absurd hd (by decide +kernel)
  · cases hs : r.side with
    | none => simp [hs, sideText] at hc
    | some s =>
      rw [hs] at hc
      revert c
      cases s <;> decide

theorem shear_words {s : Shear} (h : s.WF) {w : PyStr} (hw : w ∈ s.words) :
    (Unbarred w ∧ ¬ Opens metarWords w) ∧ ¬ Miles w := by
  have one : ∀ w ∈ [py!"WS", py!"ALL", py!"RWY"], (Unbarred w ∧ ¬ Opens metarWords w) ∧ ¬ Miles w := by
    intro w hw
    have h1 : ∀ w ∈ [py!"WS", py!"ALL", py!"RWY"],
        (((w ≠ [] ∧ ∀ c ∈ w, isSpace c = false ∧ c ≠ 61) ∧ 124 ∉ w) ∧ ¬ Opens metarWords w) ∧
          47 ∉ w := by decide
    obtain ⟨h2, h3⟩ := h1 w hw
    refine ⟨h2, ?_⟩
    rintro ⟨x, y, t, rfl, -⟩
    exact h3 (by simp)
  cases s with
  | all => exact one w hw
  | runway long r =>
    simp only [Shear.words, List.mem_cons, List.not_mem_nil, or_false] at hw
    rcases hw with rfl | rfl
    · exact one _ (by simp)
    · have hr : r.WF := h
      have hc := runway_chars hr
      have hall : ∀ c ∈ py!"R" ++ (if long then py!"WY" else []) ++ r.text,
          isSpace c = false ∧ c ≠ 61 ∧ c ≠ 124 := by
        intro c hx
        rcases List.mem_append.1 hx with hx | hx
        · have : ∀ b : Bool, ∀ c ∈ py!"R" ++ (if b then py!"WY" else []),
              isSpace c = false ∧ c ≠ 61 ∧ c ≠ 124 := by decide
          exact this long c hx
        · exact hc c hx
      refine ⟨⟨⟨⟨by simp, fun c hx => ⟨(hall c hx).1, (hall c hx).2.1⟩⟩, fun h' => (hall _ h').2.2 rfl⟩, ?_⟩, ?_⟩
      · rintro ⟨kw, hk, t, ht⟩
        obtain ⟨ds, side⟩ := r
        obtain ⟨hl, hd⟩ := hr
        simp only at hl hd
        match ds, hl with
        | [x, y], _ =>
          have hx : x ≠ 77 := by rintro rfl; exact absurd (hd 77 (by simp)) (by decide +kernel)
          simp only [metarWords, List.mem_cons, List.not_mem_nil, or_false] at hk
          rcases hk with rfl | rfl | rfl | rfl <;> cases long <;> simp [RunwayCode.text] at ht
          exact hx ht.1.symm
      · rintro ⟨x, y, t, e, hx, -⟩
        simp only [List.cons_append, List.nil_append, List.cons.injEq] at e
        obtain ⟨rfl, -⟩ := e
        exact absurd hx (by decide +kernel)

theorem station_unbarred {s : PyStr} (h : StationCode s) (hr : ¬ py!"RMK" <+: s) :
    Unbarred s ∧ ¬ Opens metarWords s := by
  obtain ⟨hl, hc, hh⟩ := h
  have hsp : ∀ c, (65 ≤ c ∧ c ≤ 90) ∨ (48 ≤ c ∧ c ≤ 57) → isSpace c = false := by
    intro c h
    have key : ∀ k : Fin 91, 48 ≤ k.1 → isSpace k.1 = false := by decide +kernel
    exact key ⟨c, by omega⟩ (by show 48 ≤ c; omega)
  refine ⟨⟨⟨by rintro rfl; simp at hl, fun c hx => ⟨hsp c (hc c hx), ?_⟩⟩, fun h' => ?_⟩, ?_⟩
  · have := hc c hx; omega
  · have := hc _ h'; omega
  · rintro ⟨kw, hk, hp⟩
    simp only [metarWords, List.mem_cons, List.not_mem_nil, or_false] at hk
    rcases hk with rfl | rfl | rfl | rfl
    · have := hp.length_le; simp at this; omega
    · have := hp.length_le; simp at this; omega
    · have := hp.length_le; simp at this; omega
    · exact hr hp

/-- The words of a record open no section. -/
theorem record_words {r : MetarRecord} (h : r.WF) (ht : (1 ≤ r.day ∧ r.day ≤ 31) ∧ r.hour ≤ 23 ∧ r.minute ≤ 59) :
    ∀ w ∈ r.words, Unbarred w ∧ ¬ Opens metarWords w := by
  intro w hw
  simp only [MetarRecord.words, MetarRecord.front, MetarRecord.rest, List.mem_append, List.mem_cons,
    List.not_mem_nil, or_false, List.mem_flatMap, Option.mem_toList] at hw
  rcases hw with (rfl | rfl | rfl) | hw | ⟨v, hv, hw⟩ | hw | ⟨s, hs, hw⟩ | hw
  · have := type_fact r.speci
    exact (this.quiet (by simp [quietPatterns])).unbarred (this.ne (by decide +kernel))
  · exact station_unbarred h.station h.noRemark
  · have := time_fact ht.1 ht.2.1 ht.2.2
    exact (this.quiet (by simp [quietPatterns])).unbarred (this.ne (by decide +kernel))
  · obtain ⟨re, hr, hf⟩ := early_fact h hw
    have : ∀ re ∈ [MODIFIER, WIND, WIND_VARIATION], (re.match []).isNone := by decide +kernel
    exact (early_quiet h hw).1.unbarred (hf.ne (this re hr))
  · exact words_unbarred (h.vis v hv).1 hw
  · exact (middle_tame h hw).quiet.unbarred (middle_tame h hw).ne
  · exact (shear_words (h.shears.2 s hs) hw).1
  · exact (late_tame h hw).quiet.unbarred (late_tame h hw).ne

/-! ### The groups -/

theorem time_words {d h i : Nat} (hd : (1 ≤ d ∧ d ≤ 31) ∧ h ≤ 23 ∧ i ≤ 59) :
    Quiet (timeText d h i) ∧ (timeText d h i).all isDigit = false ∧ timeText d h i ≠ py!"ALL" ∧
      shearTail (timeText d h i) = none := by
  have hf := time_fact hd.1 hd.2.1 hd.2.2
  have hR : ∀ c t, timeText d h i = c :: t → isDigit c = true := by
    intro c t e
    rw [timeText, padNat_two (by omega)] at e
    simp only [List.cons_append, List.cons.injEq] at e
    obtain ⟨rfl, -⟩ := e
    exact AsciiDigit.isDigit ⟨by omega, by omega⟩
  refine ⟨hf.quiet (by simp [quietPatterns]), hf.noDigits (by simp), fun e => ?_, ?_⟩
  · exact absurd (hR 65 _ e) (by decide +kernel)
  · cases hs : shearTail (timeText d h i) with
    | none => rfl
    | some t =>
      obtain ⟨wy, x, y, u, -, -, -, e, -⟩ := shearTail_iff.1 hs
      exact absurd (hR 82 _ e) (by decide +kernel)

theorem record_groups {r : MetarRecord} (h : r.WF)
    (ht : (1 ≤ r.day ∧ r.day ≤ 31) ∧ r.hour ≤ 23 ∧ r.minute ≤ 59) :
    metarGroups (join [32] r.words) = groupsOf r := by
  have hsolid : ∀ w ∈ r.words, Solid w := fun w hw c hc => ((record_words h ht w hw).1.1.2 c hc).1
  obtain ⟨tq, td, ta, ts⟩ := time_words ht
  have hty := type_fact r.speci
  have e : r.words = (if r.speci then py!"SPECI" else py!"METAR") ::
      ((r.station :: timeText r.day r.hour r.minute :: r.early) ++
        (r.vis.toList.flatMap VisGroup.words ++ r.rest)) := by
    simp [MetarRecord.words, MetarRecord.front]
  have hstat : r.station.all isDigit = false := by
    obtain ⟨hl, -, hh⟩ := h.station
    cases hs : r.station with
    | nil => rw [hs] at hl; simp at hl
    | cons c t =>
      have := hh c (by rw [hs]; rfl)
      have key : ∀ k : Fin 91, 65 ≤ k.1 → isDigit k.1 = false := by decide +kernel
      have hc := key ⟨c, by omega⟩ this.1
      rw [List.all_cons]
      simp only at hc
      rw [hc]; rfl
  rw [e] at hsolid ⊢
  rw [C55_metar_groups _ _ hsolid, joinPairs_words (n := 2) ?_ (fun g hg => (h.vis g hg).1) ?_ h.goesOn]
  · have hA : ∀ w ∈ timeText r.day r.hour r.minute :: (r.early ++ (r.vis.toList.map VisGroup.text ++ r.middle)),
        ¬ py!"WS" <:+ w := by
      intro w hw
      simp only [List.mem_cons, List.mem_append, List.mem_map, Option.mem_toList] at hw
      rcases hw with rfl | hw | ⟨v, hv, rfl⟩ | hw
      · exact tq.noShear
      · exact (early_quiet h hw).1.noShear
      · exact (vis_quiet (h.vis v hv).1).1.noShear
      · exact (middle_tame h hw).quiet.noShear
    have hL : ∀ w ∈ r.late, ¬ py!"WS" <:+ w := fun w hw => (late_tame h hw).quiet.noShear
    have hT := (hty.quiet (by simp [quietPatterns])).noShear
    have e2 : (r.station :: timeText r.day r.hour r.minute :: r.early) ++
        (r.vis.toList.map VisGroup.text ++ r.rest) =
        r.station :: ((timeText r.day r.hour r.minute ::
          (r.early ++ (r.vis.toList.map VisGroup.text ++ r.middle))) ++
          (r.shears.flatMap Shear.words ++ r.late)) := by
      simp [MetarRecord.rest]
    rw [e2, joinAll_cons hT, List.cons_append (a := timeText _ _ _), joinAll_skip ta, ← List.cons_append,
      joinAll_front hA, joinAll_shears h.shears.2, joinAll_id hL, joinShears_cons hT,
      List.cons_append (a := timeText _ _ _), joinShears_skip tq.noShear ts, ← List.cons_append,
      joinShears_front hA, joinShears_shears h.shears.2 h.shears.1 hL]
    simp [groupsOf, MetarRecord.front]
  · intro w hw
    simp only [List.mem_cons] at hw
    rcases hw with rfl | rfl | hw
    · exact hstat
    · exact td
    · exact (early_quiet h hw).2
  · intro w hw
    simp only [MetarRecord.rest, List.mem_append, List.mem_flatMap] at hw
    rcases hw with hw | ⟨s, hs, hw⟩ | hw
    · exact (middle_tame h hw).noMiles
    · exact (shear_words (h.shears.2 s hs) hw).2
    · exact (late_tame h hw).noMiles

end Verif.Props
