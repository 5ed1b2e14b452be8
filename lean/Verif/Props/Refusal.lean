import Verif.Lemmas.Refusal
import Verif.Lemmas.TrendTexts
import Verif.Props.Exceptions

/-
C73: which METARs are refused, and with which exception.
-/

namespace Verif.Props
open Spec

theorem errOf_error {α : Type} {x : Except Exc α} {e : Exc} (h : x = .error e) : errOf x = some e := by
  rw [h]; rfl

theorem errOf_ok {α : Type} {x : Except Exc α} {a : α} (h : x = .ok a) : errOf x = none := by
  rw [h]; rfl

/-- The trends of a METAR, one after the other. -/
theorem trends_exact {t : DT} {ts : List PyStr} {os : List (Option Exc)} {r : Metar} {n : Nat}
    (hE : Each (fun x o => (∀ e, o = some e → ChangePeriod.new x t = .error e) ∧
      (o = none → ∃ p, ChangePeriod.new x t = .ok p)) (ts.filter (· ≠ [])) os)
    (ht : r.time.time = t) (hl : r.weatherTrends.list.length = n) (hm : r.weatherTrends.max = 2)
    (hn : n ≤ 2) :
    errOf (Metar.trendsGo ts r) =
      (firstOf (os.take (3 - n))).or (if 3 - n ≤ os.length then some .range else none) := by
  induction ts generalizing os r n with
  | nil =>
    cases hE
    rw [if_neg (by simp; omega)]
    simp [Metar.trendsGo, errOf, firstOf]
  | cons x ts ih =>
    rw [Metar.trendsGo]
    by_cases hx : x = []
    · subst hx
      rw [if_neg (by simp)]
      rw [List.filter_cons_of_neg (by simp)] at hE
      exact ih hE ht hl hm hn
    · rw [if_pos hx]
      rw [List.filter_cons_of_pos (by simp [hx])] at hE
      cases hE with
      | @cons _ o _ os h1 hE =>
        obtain ⟨k, hk⟩ : ∃ k, 3 - n = k + 1 := ⟨2 - n, by omega⟩
        rw [hk, List.take_succ_cons, firstOf_cons]
        cases o with
        | some e =>
          have := h1.1 e rfl
          unfold Metar.handleWeatherTrend
          rw [ht, this]; rfl
        | none =>
          obtain ⟨p, hp⟩ := h1.2 rfl
          unfold Metar.handleWeatherTrend
          rw [ht, hp, ok_bind]
          unfold GroupList.add
          by_cases hfull : r.weatherTrends.list.length ≥ r.weatherTrends.max
          · rw [if_pos hfull]
            have hk0 : k = 0 := by omega
            subst hk0
            simp [firstOf, errOf, bind, Except.bind]
          · rw [if_neg hfull]
            have := ih (r := { r with
              weatherTrends := { r.weatherTrends with list := r.weatherTrends.list ++ [p] }
              core := r.core.concat p.str }) (n := n + 1) hE ht (by simp [hl]) hm (by omega)
            rw [show 3 - (n + 1) = k by omega] at this
            simp only [Option.none_or, List.length_cons, Nat.add_le_add_iff_right]
            rw [← this]
            rfl

/-- The first groups are read, whatever they raise. -/
theorem metar_readable {db : Database} {now : Now} {a : Args} {text : PyStr} (hn : 10 ∉ text)
    {y mo : Nat} {c : List (PyStr × Nat)}
    (hc : Decodes (Metar.handlers db now a) (splitC 32 text) c) : ∃ os, Each (MetarRaises y mo) c os := by
  refine Each.exists fun x hx => ?_
  have hnx : 10 ∉ x.1 := by
    rw [(decodes_iff _ _ _).1 hc] at hx
    exact not_mem_splitC hn x.1 (consumed_mem hx)
  obtain ⟨g, k⟩ := x
  obtain ⟨h, m, hh, hm⟩ := decodes_match hc hx
  unfold MetarRaises
  simp only at hnx hh hm ⊢
  split
  · next hk =>
    subst hk
    cases hh
    obtain ⟨d, h, i, e, l1, l2, l3, -⟩ := time_form hm hnx
    by_cases hv : IsTime ⟨y, mo, digitsVal d, digitsVal h, digitsVal i⟩
    · exact ⟨_, d, h, i, e, l1, l2, l3, .inl ⟨hv, rfl⟩⟩
    · exact ⟨_, d, h, i, e, l1, l2, l3, .inr ⟨hv, rfl⟩⟩
  · split
    · next hk =>
      subst hk
      cases hh
      obtain ⟨w, h1, h2⟩ := metarVis_only hm hnx
      exact ⟨_, w, h1, h2, rfl⟩
    · split
      · next hk =>
        subst hk
        cases hh
        obtain ⟨w, h1, h2⟩ := minVis_reads.2 g m hm hnx
        exact ⟨_, w, h1, h2, rfl⟩
      · exact ⟨_, rfl⟩

theorem trend_readable {text : PyStr} (hn : 10 ∉ text) {c : List (PyStr × Nat)}
    (hc : Decodes ChangePeriod.handlers (splitC 32 text) c) : ∃ os, Each (TrendRaises c) c os := by
  refine Each.exists fun x hx => ?_
  have hnx : 10 ∉ x.1 := by
    rw [(decodes_iff _ _ _).1 hc] at hx
    exact not_mem_splitC hn x.1 (consumed_mem hx)
  obtain ⟨g, k⟩ := x
  obtain ⟨h, m, hh, hm⟩ := decodes_match hc hx
  unfold TrendRaises
  simp only at hnx hh hm ⊢
  split
  · by_cases h0 : ∃ g, (g, 0) ∈ c
    · exact ⟨_, .inl ⟨h0, rfl⟩⟩
    · exact ⟨_, .inr ⟨fun g hg => h0 ⟨g, hg⟩, rfl⟩⟩
  · split
    · next hk =>
      subst hk
      cases hh
      obtain ⟨w, h1, h2⟩ := metarVis_only hm hnx
      exact ⟨_, w, h1, h2, rfl⟩
    · exact ⟨_, rfl⟩

/-- The time of the report is the one of its time group, or the first day of a month. -/
theorem metar_time_of {db : Database} {clock : Clock} {a : Args} {y mo y1 mo1 : Nat}
    (hy : a.year.getD (clock 2).year = (y : Int)) (hmo : a.month.getD (clock 2).month = (mo : Int))
    (hy1 : 1000 ≤ y) (hy2 : y ≤ 9999) (hm1 : 1 ≤ mo) (hm2 : mo ≤ 12)
    (hy1' : 1000 ≤ y1) (hy2' : y1 ≤ 9999) (hm1' : 1 ≤ mo1) (hm2' : mo1 ≤ 12)
    {raw : PyStr} (hn : 10 ∉ raw) {code : Option PyStr} {r : Metar} {un : List PyStr}
    {c : List (PyStr × Nat)}
    (h : parseSection (Metar.handlers db (clock 2) a) (Metar.bodyText raw)
      (Metar.start raw ⟨code, ⟨y1, mo1, 1, 0, 0⟩⟩) = .ok (r, un))
    (hc : Decodes (Metar.handlers db (clock 2) a) (splitC 32 (Metar.bodyText raw)) c) :
    r.time.time.valid = true ∧ (TooLate y mo c ↔ ¬ ∃ u, After r.time.time 120 u) := by
  obtain ⟨asg, l1, l2, l3, l4, -⟩ := parseSection_reading h
  have he : c = consumed (splitC 32 (Metar.bodyText raw)) asg := by
    rw [(decodes_iff _ _ _).1 hc, ← (decodes_iff _ _ _).1 ⟨asg, l1, l2, rfl⟩]
  rw [← he] at l3 l4
  have hR := Metar.reading l3 l4 ⟨rfl, rfl⟩ ⟨rfl, rfl⟩ ⟨rfl, rfl⟩ ⟨rfl, rfl⟩
  rcases hR.time with ⟨g, m, hg, hm, hx⟩ | ⟨hno, hx⟩
  · have hng : 10 ∉ g := by
      rw [(decodes_iff _ _ _).1 hc] at hg
      exact not_mem_splitC (Metar.bodyText_no_newline hn) g (consumed_mem hg)
    obtain ⟨d, h, i, e, k1, k2, k3, -, -, -, v1, v2⟩ := time_value hy hmo hy1 hy2 hm1 hm2 hm hng
    simp only at hx
    by_cases hv : IsTime ⟨y, mo, digitsVal d, digitsVal h, digitsVal i⟩
    · rw [v1 hv, Except.ok.injEq] at hx
      rw [← hx]
      refine ⟨(isTime_iff _).1 hv, fun ⟨d', h', i', hg', j1, j2, j3, hu⟩ => ?_, fun hu => ?_⟩
      · have hgg := Ordered.unique l4 hg hg'
        obtain ⟨rfl, rfl, rfl⟩ := append_three (e.symm.trans hgg) (by omega) (by omega)
        exact hu
      · exact ⟨d, h, i, e ▸ hg, k1, k2, k3, hu⟩
    · rw [v2 hv] at hx
      cases hx
  · rw [hx]
    show (DT.mk y1 mo1 1 0 0).valid = true ∧ (_ ↔ ¬ ∃ u, After (DT.mk y1 mo1 1 0 0) 120 u)
    have hd := (dimL_pos (isLeap y1) mo1 hm1' hm2').1
    have hval : (DT.mk y1 mo1 1 0 0).valid = true := by
      rw [DT.valid_iff]
      refine ⟨⟨by simp only; omega, hy2', hm1', hm2', Nat.le_refl _, ?_⟩, by simp, by simp⟩
      simp only
      rw [daysInMonth_eq]
      omega
    refine ⟨hval, fun ⟨d, h, i, hg, _⟩ => absurd hg (hno _), fun hu => (hu ?_).elim⟩
    refine ⟨⟨y1, mo1, 1, 2, 0⟩, (after_iff hval).2 ⟨?_, ?_⟩⟩
    · rw [DT.valid_iff] at hval ⊢
      exact ⟨hval.1, by simp, by simp⟩
    · simp [DT.toMinutes]

/-- C73. Whether a METAR is refused, and with which exception, is read off its groups: the first group
of the body that is refused decides (a time that does not exist, a visibility that cannot be
computed); then the trends in their order (two hours after the report there must be a date, a period
needs an indicator, the visibility must be computable); a third trend is refused. Nothing else makes
the constructor raise. -/
theorem C73_metar (db : Database) (clock : Clock) (code : PyStr) (a : Args) (y mo : Nat)
    (hy : a.year.getD (clock 2).year = (y : Int)) (hmo : a.month.getD (clock 2).month = (mo : Int))
    (hy1 : 1000 ≤ y) (hy2 : y ≤ 9999) (hm1 : 1 ≤ mo) (hm2 : mo ≤ 12) (hc : code ≠ [])
    (hs : Sane clock) (ht : a.truncate = false) :
    (∃ o, MetarRead db clock code a y mo o) ∧
    ∀ o, MetarRead db clock code a y mo o → errOf (Metar.new db clock code a) = o := by
  have hraw : 10 ∉ normalizeCode code := normalizeCode_no_newline code
  have hbody := Metar.bodyText_no_newline hraw
  constructor
  · obtain ⟨os, hos⟩ := metar_readable (y := y) (mo := mo) hbody
      ((decodes_iff (Metar.handlers db (clock 2) a) _ _).2 rfl)
    have hparts : ∀ t ∈ trendTexts (metarSections (normalizeCode code)).2.1, 10 ∉ t := by
      intro t ht
      rw [← trendTexts_eq] at ht
      exact Metar.trendParts_no_newline hraw t (List.mem_filter.1 ht).1
    obtain ⟨cs, hcs⟩ := Each.exists (R := fun t c => 10 ∉ t ∧
      Decodes ChangePeriod.handlers (bodyGroups (shown t)) c) fun t ht =>
        ⟨_, hparts t ht, (decodes_iff _ _ _).2 rfl⟩
    have : ∀ c ∈ cs, ∃ o, ∃ os, Each (TrendRaises c) c os ∧ o = firstOf os := by
      intro c hc
      obtain ⟨t, -, hnt, hd⟩ := hcs.right c hc
      rw [shown_eq] at hd
      obtain ⟨os, h⟩ := trend_readable (not_mem_sanitizeVisibility (by decide) (by decide)
        (not_mem_replace (by decide) hnt (by decide))) hd
      exact ⟨_, os, h, rfl⟩
    obtain ⟨oss, hoss⟩ := Each.exists this
    have hout : ∀ (late : Prop) (b : Option Exc) (os : List (Option Exc)),
        ∃ o, MetarOutcome late b os o := by
      intro late b os
      cases b with
      | some e => exact ⟨_, .body rfl⟩
      | none =>
        by_cases hl : late ∧ os ≠ []
        · exact ⟨_, .late rfl hl.1 hl.2⟩
        · by_cases h3 : 3 ≤ os.length
          · have hl' : ¬ late := fun h => hl ⟨h, by rintro rfl; simp at h3⟩
            cases hf : firstOf (os.take 3) with
            | some e => exact ⟨_, .trend rfl hl' hf⟩
            | none => exact ⟨_, .range rfl hl' hf h3⟩
          · cases hf : firstOf (os.take 3) with
            | some e =>
              exact ⟨_, .trend rfl (fun h => hl ⟨h, by rintro rfl; simp [firstOf] at hf⟩) hf⟩
            | none => exact ⟨_, .fine rfl (fun h h' => hl ⟨h', h⟩) hf (by omega)⟩
    obtain ⟨o, ho⟩ := hout _ _ _
    exact ⟨o, _, os, cs, oss, (decodes_iff _ _ _).2 rfl, hos,
      Each.map_mem hcs fun _ _ _ h => h.2, hoss, ho⟩
  · rintro o ⟨c, os, cs, oss, hdec, hos, hcs, hoss, hout⟩
    have hya : ∀ x, a.year = some x → 1000 ≤ x ∧ x ≤ 9999 := fun x hx => by
      rw [hx] at hy
      simp only [Option.getD_some] at hy
      omega
    have hma : ∀ x, a.month = some x → 1 ≤ x ∧ x ≤ 12 := fun x hx => by
      rw [hx] at hmo
      simp only [Option.getD_some] at hmo
      omega
    obtain ⟨_, _, -, -, -, -, -, -, e0⟩ := default_time hs 0 none none (by simp) (by simp)
    obtain ⟨y1, mo1, b1, b2, b3, b4, -, -, e1⟩ := default_time hs 1 a.year a.month hya hma
    obtain ⟨p1, p2⟩ := Metar.body_exact hy hmo hy1 hy2 hm1 hm2 hbody
      (Metar.start_room (normalizeCode code) ⟨none, ⟨y1, mo1, 1, 0, 0⟩⟩) hdec hos
    rw [Metar.new_eq db clock code a hc]
    have e1' : Time.fromMetar (clock 1) none a.year a.month = .ok ⟨none, ⟨y1, mo1, 1, 0, 0⟩⟩ := e1
    rw [e0, ok_bind, e1', ok_bind]
    cases hf : firstOf os with
    | some e =>
      rw [hf] at hout
      have : o = some e := by
        cases hout with
        | body h => exact h.symm
        | late h => cases h
        | trend h => cases h
        | range h => cases h
        | fine h => cases h
      rw [p1 e hf, this]; rfl
    | none =>
      obtain ⟨r1, un, hr1⟩ := p2 hf
      obtain ⟨hv, hlate⟩ := metar_time_of hy hmo hy1 hy2 hm1 hm2 b1 b2 b3 b4 hraw hr1 hdec
      have hfr := Metar.parse_frame hr1
      have htr : r1.trend = (metarSections (normalizeCode code)).2.1 := by
        unfold Metar.trend
        rw [hfr.sections]; rfl
      rw [hr1, ok_bind]
      simp only
      rw [htr]
      have hfin : ∀ x : Except Exc Metar, errOf (x >>= fun r => (do
          if r.finish.unparsed ≠ [] ∧ a.truncate then
            throw (Exc.parser (Metar.errorMessage r.finish.unparsed r.rawCode))
          return r.finish : Except Exc Metar)) = errOf x := by
        intro x
        cases x with
        | error e => rfl
        | ok r => simp [ht]; rfl
      rw [hfin]
      by_cases hl : ∃ u, After r1.time.time 120 u
      · obtain ⟨u, hu⟩ := hl
        have hnl : ¬ TooLate y mo c := fun h => hlate.1 h ⟨u, hu⟩
        have hE : Each (fun x o => (∀ e, o = some e → ChangePeriod.new x r1.time.time = .error e) ∧
            (o = none → ∃ p, ChangePeriod.new x r1.time.time = .ok p))
            ((splitSentence (metarSections (normalizeCode code)).2.1 [py!"TEMPO", py!"BECMG"] 1
              .both).filter (· ≠ [])) oss := by
          rw [trendTexts_eq]
          refine Each.comp (fun t c o hd ho => ?_) hcs hoss
          obtain ⟨os, hos, rfl⟩ := ho
          rw [shown_eq] at hd
          exact ChangePeriod.new_exact hv hu hd hos
        rw [trends_exact (r := { r1 with unparsed := r1.unparsed ++ un }) (n := 0) hE rfl
          (by simp only [hfr.trends]; rfl) (by simp only [hfr.trends]; rfl) (by omega)]
        simp only [Nat.sub_zero]
        rw [hf] at hout
        cases hout with
        | body h => cases h
        | late _ h => exact absurd h hnl
        | trend _ _ h => rw [h]; rfl
        | range _ _ h h3 => rw [h, if_pos h3]; rfl
        | fine _ _ h h3 => rw [h, if_neg (by omega)]; rfl
      · have hnl : TooLate y mo c := hlate.2 hl
        have hlen := Each.length (Each.comp (T := fun _ _ => True) (fun _ _ _ _ _ => trivial) hcs hoss)
        rw [hf] at hout
        have hgo : ∀ ts : List PyStr, ∀ r : Metar, r.time.time = r1.time.time →
            errOf (Metar.trendsGo ts r) =
              if ts.filter (· ≠ []) = [] then none else some .overflow := by
          intro ts
          induction ts with
          | nil => intro r _; rfl
          | cons t ts ih =>
            intro r hr
            rw [Metar.trendsGo]
            by_cases ht : t = []
            · subst ht
              rw [if_neg (by simp), ih r hr]
              simp
            · rw [if_pos ht, if_neg (by simp [ht])]
              unfold Metar.handleWeatherTrend ChangePeriod.new
              rw [hr, TrendIndicator.new_late hv hl]
              rfl
        rw [hgo _ { r1 with unparsed := r1.unparsed ++ un } rfl, trendTexts_eq]
        cases hout with
        | body h => cases h
        | late _ _ h =>
          rw [if_neg]
          intro h'
          rw [h'] at hlen
          exact h (List.length_eq_zero_iff.1 (by simpa using hlen.symm))
        | trend _ h => exact absurd hnl h
        | range _ h => exact absurd hnl h
        | fine _ h =>
          rw [if_pos]
          have : oss = [] := by
            rcases oss with _ | ⟨o, os⟩
            · rfl
            · exact absurd hnl (h (by simp))
          rw [this] at hlen
          exact List.length_eq_zero_iff.1 (by simpa using hlen)

/-- The reading of a METAR whose second trend has a period but no indicator, as the word `NOSIGX`
opens a trend without being one. -/
example : MetarRead sampleDb sampleClock py!"METAR SKBO 151230Z 9999 NOSIGX FM1300 1/0SM TEMPO RA" {}
    2024 6 (some .type) := by
  refine ⟨[(py!"METAR", 0), (py!"SKBO", 1), (py!"151230Z", 2), (py!"9999", 6)], [none, none, none, none],
    [[(py!"FM1300", 1), (py!"1/0SM", 4)], [(py!"TEMPO", 0), (py!"RA", 5)]], [some .type, none],
    (decodes_iff _ _ _).2 (by decide +kernel), ?_, ?_, ?_, ?_⟩
  · refine .cons rfl (.cons rfl (.cons ?_ (.cons ?_ .nil)))
    · exact ⟨py!"15", py!"12", py!"30", rfl, rfl, rfl, rfl, .inl ⟨(isTime_iff _).2 (by decide +kernel), rfl⟩⟩
    · exact ⟨.metres (.digits py!"9999") none, ⟨⟨rfl, by decide⟩, by simp⟩, rfl, rfl⟩
  · rw [show trendTexts _ = [py!"NOSIGX FM1300 1/0SM", py!"TEMPO RA"] by decide +kernel]
    exact .cons ((decodes_iff _ _ _).2 (by decide +kernel))
      (.cons ((decodes_iff _ _ _).2 (by decide +kernel)) .nil)
  · refine .cons ⟨[some .type, some .zeroDiv], .cons (.inr ⟨by simp, rfl⟩) (.cons ?_ .nil), rfl⟩
      (.cons ⟨[none, none], .cons rfl (.cons rfl .nil), rfl⟩ .nil)
    exact ⟨.range ⟨.exact, none, false, some (49, 48), .sm⟩, ⟨by simp, by simp; decide⟩, rfl, by decide⟩
  · refine .trend rfl ?_ rfl
    rintro ⟨d, h, i, hg, l1, l2, l3, hu⟩
    simp only [List.mem_cons, Prod.mk.injEq, List.not_mem_nil, or_false] at hg
    rcases hg with ⟨-, h⟩ | ⟨-, h⟩ | ⟨hg, -⟩ | ⟨-, h⟩
    · cases h
    · cases h
    · obtain ⟨rfl, rfl, rfl⟩ := append_three (d := py!"15") (e := py!"12") (f := py!"30") (z := py!"Z")
        hg l1 l2
      exact hu ⟨⟨2024, 6, 15, 14, 30⟩, (after_iff (by decide +kernel)).2 (by decide +kernel)⟩
    · cases h

/-- The outcomes of some METARs. -/
example : metarErr py!"METAR SKBO 151230Z 9999 NOSIGX FM1300 1/0SM TEMPO RA" = some .type ∧
    metarErr py!"METAR SKBO 311230Z 1/0SM" = some .value ∧
    metarErr py!"METAR SKBO 151230Z 1/0SM TEMPO 1/2KM" = some .zeroDiv ∧
    metarErr py!"METAR SKBO 151230Z 9999 2000EW TEMPO 1/2KM" = some .value ∧
    metarErr py!"METAR SKBO 151230Z 9999 NOSIG TEMPO RA BECMG 1/2KM" = some .type ∧
    metarErr py!"METAR SKBO 151230Z 9999 NOSIG TEMPO RA BECMG SN" = some .range ∧
    metarErr py!"METAR SKBO 151230Z 9999 TEMPO RA BECMG SN" = none ∧
    metarErr py!"METAR SKBO 312230Z 9999 NOSIG" { year := some 9999, month := some 12 } =
      some .overflow ∧
    metarErr py!"METAR SKBO 312230Z 9999" { year := some 9999, month := some 12 } = none := by
  decide +kernel

end Verif.Props
