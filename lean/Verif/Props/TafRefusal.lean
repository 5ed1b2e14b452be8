import Verif.Lemmas.TafRefusal
import Verif.Props.Refusal

/-
C73: which TAFs are refused, and with which exception.
-/

namespace Verif.Props
open Spec

/-- The changes of a TAF, one after the other. -/
theorem changes_exact {ts : List PyStr} {fs : List ChangeFacts} {earlier : List (Option PyStr)}
    {r : Taf} {o : Option Exc}
    (hE : Each (fun t f => 10 ∉ t ∧ ChangeRead t f) (ts.filter (· ≠ [])) fs)
    (hv : r.valid.from_.time.valid = true) (hb : r.valid.from_.time.toMinutes < lastYear + 2 * 1440)
    (ha : 98 * 1440 ≤ r.valid.from_.time.toMinutes)
    (hl : Each CodeLike earlier r.changes.list) (hm : r.changes.max = 8)
    (hlen : r.changes.list.length ≤ 8) (ho : ChangesOutcome earlier fs o) :
    errOf (Taf.changesGo ts r) = o := by
  induction ts generalizing fs r earlier with
  | nil =>
    cases hE
    cases ho
    rfl
  | cons t ts ih =>
    rw [Taf.changesGo]
    by_cases ht : t = []
    · subst ht
      rw [if_neg (by simp)]
      rw [List.filter_cons_of_neg (by simp)] at hE
      exact ih hE hv hb ha hl hm hlen ho
    · rw [if_pos ht]
      rw [List.filter_cons_of_pos (by simp [ht])] at hE
      cases hE with
      | @cons _ f _ fs h1 hE =>
        obtain ⟨hn, c, os, hdec, hos, ht', hr, hi⟩ := h1
        obtain ⟨e1, e2⟩ := ChangeForecasted.new_exact hv hb ha hn hdec hos
        have hlen' := hl.length
        unfold Taf.handleChange
        -- what happens once the change is read
        have hread : f.raises = none → ∃ p u, ChangeForecasted.new t r.valid = .ok p ∧
            p.indicator.valid.from_.time.addHours (-1) = .ok u ∧ CodeLike f.indicator p ∧
            (p.begins ↔ f.begins) := by
          intro hf
          obtain ⟨p, hp, pc, pv, pa, pi⟩ := e2 (hr.symm.trans hf)
          have rng := toMinutes_range pv
          obtain ⟨u, hu, eu⟩ := exists_minutes (n := p.indicator.valid.from_.time.toMinutes - 60)
            (by omega) (by omega)
          refine ⟨p, u, hp, addMinutes_iff.2 ⟨hu, by omega⟩, ?_, ?_⟩
          · rcases pi with ⟨g, t, hg, hcode, hsame⟩ | ⟨hno, hcode⟩
            · rcases hi with ⟨g', hg', hi⟩ | ⟨hno, -⟩
              · refine .inl ⟨g, t, ?_, hcode, hsame⟩
                rw [hi]
                congr 1
                have hoc : Ordered c := by rw [(decodes_iff _ _ _).1 hdec]; exact consumed_ordered
                exact Ordered.unique hoc hg' hg
              · exact absurd hg (hno g)
            · rcases hi with ⟨g', hg', hi⟩ | ⟨-, hi⟩
              · exact absurd hg' (hno g')
              · exact .inr ⟨hi, hcode⟩
          · unfold ChangeForecasted.begins ChangeFacts.begins
            rw [pc, ht', startsWith_iff, startsWith_iff]
        cases ho with
        | read hf => rw [e1 _ (hr.symm.trans hf)]; rfl
        | none hf hb' hmn =>
          obtain ⟨p, u, hp, hu, hc, hbg⟩ := hread hf
          rw [hp, ok_bind, (addChange_exact hu (by omega)).1
            ⟨hbg.2 hb', (meetsNone_iff hl).1 hmn⟩]
          rfl
        | range hf hnb hge =>
          obtain ⟨p, u, hp, hu, hc, hbg⟩ := hread hf
          rw [hp, ok_bind, (addChange_exact hu (by omega)).2.1
            (fun h => hnb ⟨hbg.1 h.1, (meetsNone_iff hl).2 h.2⟩) (by omega)]
          rfl
        | next hf hnb hlt ho =>
          obtain ⟨p, u, hp, hu, hc, hbg⟩ := hread hf
          obtain ⟨g', hg'⟩ := (addChange_exact (new := p) hu (by omega)).2.2
            (fun h => hnb ⟨hbg.1 h.1, (meetsNone_iff hl).2 h.2⟩) (by omega)
          rw [hp, ok_bind, hg', ok_bind]
          obtain ⟨l', rfl, c1, c2⟩ := addChange_ok hg'
          have hl' : Each CodeLike earlier l' := by
            by_cases hs : p.begins
            · exact CodeLike.closes (c1 hs) hl
            · rw [c2 hs]; exact hl
          have hll := hl'.length
          refine ih hE hv hb ha (r := Taf.concat { r with changes := _ } _) ?_ hm ?_ ho
          · show Each CodeLike _ ((l' ++ [p]).dropLast ++ [p.str.2])
            rw [List.dropLast_concat]
            refine hl'.append (.cons ?_ .nil)
            exact hc
          · show ((l' ++ [p]).dropLast ++ [p.str.2]).length ≤ 8
            rw [List.dropLast_concat]
            simp
            omega

theorem taf_readable {db : Database} {now : Now} {a : Args} {text : PyStr} (hn : 10 ∉ text)
    {y mo : Nat} {c : List (PyStr × Nat)}
    (hc : Decodes (Taf.handlers db now a) (splitC 32 text) c) : ∃ os, Each (TafRaises y mo c) c os := by
  refine Each.exists fun x hx => ?_
  have hnx : 10 ∉ x.1 := by
    rw [(decodes_iff _ _ _).1 hc] at hx
    exact not_mem_splitC hn x.1 (consumed_mem hx)
  obtain ⟨g, k⟩ := x
  obtain ⟨h, m, hh, hm⟩ := decodes_match hc hx
  unfold TafRaises
  simp only at hnx hh hm ⊢
  split
  · next hk =>
    subst hk
    cases hh
    obtain ⟨d, h, i, e, l1, l2, l3, -⟩ := time_form hm hnx
    by_cases hv : IsTime ⟨y, mo, digitsVal d, digitsVal h, digitsVal i⟩
    · exact ⟨_, d, h, i, e, l1, l2, l3, .inl ⟨hv, rfl⟩⟩
    · exact ⟨_, d, h, i, e, l1, l2, l3, .inr ⟨hv, rfl⟩⟩
  · split
    · exact tafVis_readable g
    · split
      · exact ⟨_, rfl⟩
      · exact ⟨_, rfl⟩

theorem change_readable {t : PyStr} (hn : 10 ∉ t) : ∃ f, ChangeRead t f := by
  have h1 : 10 ∉ replace t py!"_" py!" " := not_mem_replace (by decide) hn (by decide)
  have h2 : 10 ∉ sanitizeVisibility (sanitizeChangeIndicator (replace t py!"_" py!" ")) :=
    not_mem_sanitizeVisibility (by decide) (by decide)
      (not_mem_sanitizeChangeIndicator (by decide) h1)
  rw [← shown_eq] at h2
  obtain ⟨c, hc⟩ : ∃ c, Decodes ChangeForecasted.handlers (changeGroups (shown t)) c :=
    ⟨_, (decodes_iff _ _ _).2 rfl⟩
  have : ∃ os, Each (ChangeRaises c) c os := by
    refine Each.exists fun x hx => ?_
    have hnx : 10 ∉ x.1 := by
      rw [(decodes_iff _ _ _).1 hc] at hx
      exact not_mem_splitC h2 x.1 (consumed_mem hx)
    obtain ⟨g, k⟩ := x
    obtain ⟨h, m, hh, hm⟩ := decodes_match hc hx
    unfold ChangeRaises
    simp only at hnx hh hm ⊢
    split
    · by_cases h0 : ∃ g, (g, 0) ∈ c
      · exact ⟨_, .inl ⟨h0, rfl⟩⟩
      · exact ⟨_, .inr ⟨fun g hg => h0 ⟨g, hg⟩, rfl⟩⟩
    · split
      · next hk =>
        subst hk
        cases hh
        obtain ⟨w, h1, h2⟩ := metarVis_only hm hnx
        exact ⟨_, w, h1, h2, rfl⟩
      · exact ⟨_, rfl⟩
  obtain ⟨os, hos⟩ := this
  by_cases h0 : ∃ g, (g, 0) ∈ c
  · obtain ⟨g, hg⟩ := h0
    exact ⟨⟨_, _, _⟩, c, os, hc, hos, rfl, rfl, .inl ⟨g, hg, rfl⟩⟩
  · exact ⟨⟨_, _, _⟩, c, os, hc, hos, rfl, rfl, .inr ⟨fun g hg => h0 ⟨g, hg⟩, rfl⟩⟩

/-- The changes always have an outcome. -/
theorem changes_outcome (earlier : List (Option PyStr)) (fs : List ChangeFacts) :
    ∃ o, ChangesOutcome earlier fs o := by
  induction fs generalizing earlier with
  | nil => exact ⟨_, .nil⟩
  | cons f fs ih =>
    cases hf : f.raises with
    | some e => exact ⟨_, .read hf⟩
    | none =>
      by_cases hb : f.begins ∧ MeetsNone earlier
      · exact ⟨_, .none hf hb.1 hb.2⟩
      · rcases Nat.lt_or_ge earlier.length 8 with hl | hl
        · obtain ⟨o, ho⟩ := ih (earlier ++ [f.indicator])
          exact ⟨o, .next hf hb hl ho⟩
        · exact ⟨_, .range hf hb hl⟩

/-- C73 for TAFs. The first group of the body that is refused decides (a time that does not exist, a
visibility that cannot be computed, a third highest or lowest temperature); then the changes in their
order: their groups (a period needs an indicator, the visibility must be computable), then whether
looking back for the change that ends one without indicator is met, then whether there are eight
already. Nothing else makes the constructor raise before the year 9999. -/
theorem C73_taf (db : Database) (clock : Clock) (code : PyStr) (a : Args) (y mo : Nat)
    (hy : a.year.getD (clock 1).year = (y : Int)) (hmo : a.month.getD (clock 1).month = (mo : Int))
    (hy1 : 1000 ≤ y) (hy2 : y ≤ 9998) (hm1 : 1 ≤ mo) (hm2 : mo ≤ 12) (hc : code ≠ [])
    (hs : Sane clock) (h0 : (clock 0).year ≤ 9998) (ht : a.truncate = false) :
    (∃ o, TafRead db clock code a y mo o) ∧
    ∀ o, TafRead db clock code a y mo o → errOf (Taf.new db clock code a) = o := by
  have hraw : 10 ∉ normalizeCode code := normalizeCode_no_newline code
  have hbody := Taf.bodyText_no_newline hraw
  have hparts : ∀ t ∈ (tafSections (normalizeCode code)).2.filter (· ≠ []), 10 ∉ t := fun t ht =>
    (tafSections_no_newline hraw).2 t (List.mem_filter.1 ht).1
  constructor
  · obtain ⟨os, hos⟩ := taf_readable (y := y) (mo := mo) hbody
      ((decodes_iff (Taf.handlers db (clock 1) a) _ _).2 rfl)
    obtain ⟨fs, hfs⟩ := Each.exists (R := ChangeRead) fun t ht => change_readable (hparts t ht)
    cases hf : firstOf os with
    | some e => exact ⟨some e, _, os, fs, (decodes_iff _ _ _).2 rfl, hos, hfs, .inl ⟨e, hf, rfl⟩⟩
    | none =>
      obtain ⟨o, ho⟩ := changes_outcome [] fs
      exact ⟨o, _, os, fs, (decodes_iff _ _ _).2 rfl, hos, hfs, .inr ⟨hf, ho⟩⟩
  · rintro o ⟨c, os, fs, hdec, hos, hfs, hout⟩
    obtain ⟨y1, mo1, b1, b2, b3, b4, b5, -, e0⟩ := default_time hs 0 none none (by simp) (by simp)
    simp only [Option.getD_none] at b5
    have hv1 : DT.valid ⟨y1, mo1, 1, 0, 0⟩ = true := by
      have hd := (dimL_pos (isLeap y1) mo1 b3 b4).1
      rw [DT.valid_iff]
      refine ⟨⟨by simp only; omega, b2, b3, b4, Nat.le_refl _, ?_⟩, by simp, by simp⟩
      simp only
      rw [daysInMonth_eq]
      omega
    obtain ⟨v, hv, v1, v2, v3⟩ := valid_none_exists hv1 (minutes_before hv1 (by simp only; omega))
    have k1 := minutes_before hv1 (by simp only; omega)
    have k2 := minutes_after hv1 b1
    obtain ⟨p1, p2⟩ := Taf.body_exact (r := Taf.start (normalizeCode code) ⟨none, ⟨y1, mo1, 1, 0, 0⟩⟩ v)
      hy hmo hy1 hy2 hm1 hm2 hbody
      ⟨⟨0, Taf.start_room _ _ _, fun _ _ => Nat.zero_le _⟩, hv1, k1, k2, v1,
        show v.from_.time.toMinutes < _ by omega, show _ ≤ v.from_.time.toMinutes by omega, rfl, rfl,
        [], rfl, rfl, rfl⟩ hdec hos
    rw [Taf.new_eq db clock code a hc, e0, ok_bind]
    simp only [hv, ok_bind]
    cases hf : firstOf os with
    | some e =>
      rw [hf] at hout
      rcases hout with ⟨e', he', rfl⟩ | ⟨h, -⟩
      · cases he'
        rw [p1 e hf]; rfl
      · cases h
    | none =>
      obtain ⟨r1, un, hr1, hl⟩ := p2 hf
      have hfr := Taf.parse_frame hr1
      rw [hf] at hout
      rcases hout with ⟨e', he', -⟩ | ⟨-, ho⟩
      · cases he'
      rw [hr1, ok_bind]
      simp only
      have hfin : ∀ x : Except Exc Taf, errOf (x >>= fun r => (do
          if r.finish.unparsed ≠ [] ∧ a.truncate then
            throw (Exc.parser (Metar.errorMessage r.finish.unparsed r.rawCode))
          return r.finish : Except Exc Taf)) = errOf x := by
        intro x
        cases x with
        | error e => rfl
        | ok r => simp [ht]; rfl
      rw [hfin]
      have hcodes : r1.changesCodes = (tafSections (normalizeCode code)).2 := hfr.changesCodes
      have hch : r1.changes = GroupList.new 8 := hfr.changes
      have hfs' : Each (fun t f => 10 ∉ t ∧ ChangeRead t f)
          ((tafSections (normalizeCode code)).2.filter (· ≠ [])) fs :=
        Each.map_mem hfs fun t ht f h => ⟨hparts t ht, h⟩
      have q1 : Each CodeLike [] r1.changes.list := by rw [hch]; exact .nil
      have q2 : r1.changes.max = 8 := by rw [hch]; rfl
      have q3 : r1.changes.list.length ≤ 8 := by rw [hch]; exact Nat.zero_le _
      rw [← hcodes] at hfs'
      exact changes_exact hfs' (r := { r1 with unparsed := r1.unparsed ++ un }) hl.period
        hl.periodBefore hl.periodAfter q1 q2 q3 ho

/-- The reading of a TAF whose last change looks back over the second one and meets the first, which is
opened by `PROB30` but has no indicator. -/
example : TafRead sampleDb sampleClock
    py!"TAF SKBO 151130Z 1512/1612 9999 PROB30X RA PROB30 1514/1516 SN FM151800 TS" {} 2024 6
    (some .attribute) := by
  refine ⟨[(py!"TAF", 0), (py!"SKBO", 2), (py!"151130Z", 3), (py!"1512/1612", 5), (py!"9999", 8)],
    [none, none, none, none, none],
    [⟨py!"PROB30X RA", none, none⟩, ⟨py!"PROB30 1514/1516 SN", some py!"PROB30", none⟩,
      ⟨py!"FM151800 TS", some py!"FM151800", none⟩],
    (decodes_iff _ _ _).2 (by decide +kernel), ?_, ?_, .inr ⟨rfl, ?_⟩⟩
  · refine .cons rfl (.cons rfl (.cons ?_ (.cons rfl (.cons ?_ .nil))))
    · exact ⟨py!"15", py!"11", py!"30", rfl, rfl, rfl, rfl, .inl ⟨(isTime_iff _).2 (by decide +kernel), rfl⟩⟩
    · refine .inr ⟨fun w hw hp => ?_, rfl⟩
      cases h : w.raises with
      | none => rfl
      | some e =>
        have hsome : (TafRegExp.VISIBILITY.match py!"9999").isSome = true := by decide +kernel
        obtain ⟨m, hm⟩ := Option.isSome_iff_exists.1 hsome
        have h1 := (tafVis_exact_raise (.inl ⟨w, e, hw, hp, h, rfl⟩) hm).1 e rfl
        have h2 : ((TafRegExp.VISIBILITY.match py!"9999").map fun m => errOf (prevailing m)) =
            some none := by decide +kernel
        rw [hm, Option.map_some, h1] at h2
        cases h2
  · rw [show List.filter _ _ = [py!"PROB30X RA", py!"PROB30 1514/1516 SN", py!"FM151800 TS"] by decide +kernel]
    refine .cons ⟨[(py!"RA", 4)], [none], (decodes_iff _ _ _).2 (by decide +kernel),
      .cons rfl .nil, by decide +kernel, rfl, .inr ⟨by simp, rfl⟩⟩
      (.cons ⟨[(py!"PROB30", 0), (py!"1514/1516", 1), (py!"SN", 4)], [none, none, none],
        (decodes_iff _ _ _).2 (by decide +kernel), ?_, by decide +kernel, rfl, .inl ⟨_, .head _, rfl⟩⟩
      (.cons ⟨[(py!"FM151800", 0), (py!"TS", 4)], [none, none],
        (decodes_iff _ _ _).2 (by decide +kernel), .cons rfl (.cons rfl .nil), by decide +kernel, rfl,
        .inl ⟨_, .head _, rfl⟩⟩ .nil))
    exact .cons rfl (.cons (.inl ⟨⟨_, .head _⟩, rfl⟩) (.cons rfl .nil))
  · refine .next rfl (fun h => ?_) (by decide) (.next rfl (fun h => ?_) (by decide)
      (.none rfl (.inl ⟨_, rfl⟩) ⟨[], [some py!"PROB30"], rfl, ?_⟩))
    · obtain ⟨pre, post, h, -⟩ := h.2
      cases pre <;> cases h
    · rcases h.1 with ⟨x, h⟩ | ⟨x, h⟩ <;> cases h
    · intro i hi
      rw [List.mem_singleton] at hi
      subst hi
      exact ⟨_, rfl, .inl ⟨_, rfl⟩⟩

/-- The outcomes of some TAFs. -/
example : tafErr py!"TAF SKBO 151130Z 1512/1612 9999 PROB30X RA PROB30 1514/1516 SN FM151800 TS" =
      some .attribute ∧
    tafErr py!"TAF SKBO 151130Z 1512/1612 9999 BECMGX 1/0SM TEMPO 1514/1516 SN" = some .zeroDiv ∧
    tafErr py!"TAF SKBO 311130Z 1512/1612 1/0SM" = some .value ∧
    tafErr py!"TAF SKBO 151130Z 1512/1612 1/0SMX" = some .zeroDiv ∧
    tafErr py!"TAF SKBO 151130Z 1512/1612 1/2KM" = some .type ∧
    tafErr py!"TAF SKBO 151130Z 1512/1612 TX20/1512Z TX20/1513Z TX20/1514Z" = some .range ∧
    tafErr py!"TAF SKBO 151130Z 1512/1612 TX20/1512Z TX20/1513Z TN20/1514Z" = none ∧
    tafErr py!"TAF SKBO 151130Z 1512/1612 TEMPO RA TEMPO RA TEMPO RA TEMPO RA TEMPO RA TEMPO RA TEMPO RA TEMPO RA FM151400 SN" =
      some .range ∧
    tafErr py!"TAF SKBO 151130Z 1512/1612 TEMPO RA TEMPO RA TEMPO RA TEMPO RA TEMPO RA TEMPO RA TEMPO RA FM151400 SN" =
      none := by
  decide +kernel

end Verif.Props
