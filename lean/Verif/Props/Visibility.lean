import Verif.Lemmas.Foreign
import Verif.Lemmas.Visibility
import Verif.Props.Exceptions

/-
C21-C24: visibility groups.
-/

namespace Verif.Props
open Verif.Spec

/-- C21. Four digits give that number of metres, 9999 gives 10000 and `////` gives `None`; a compass
suffix gives its direction in degrees. This holds for the prevailing visibility of METAR, of TAF
(where `////` is not accepted) and for the minimum visibility. -/
theorem C21_metres (v : Metres) (hv : v.WF) (dir : Option PyStr) (deg : Option Nat)
    (hd : dir = none ∧ deg = none ∨ ∃ d n, dir = some d ∧ deg = some n ∧ (d, some n) ∈ visSuffixes) :
    (∃ m x, MetarRegExp.VISIBILITY.match (v.text ++ dir.getD []) = some m ∧ prevailing m = .ok x ∧
      x.vis = v.number.map whole ∧ x.direction = ⟨deg.map whole, false⟩ ∧ x.cavok = false) ∧
    (v ≠ .undef → ∃ m x, TafRegExp.VISIBILITY.match (v.text ++ dir.getD []) = some m ∧
      prevailing m = .ok x ∧
      x.vis = v.number.map whole ∧ x.direction = ⟨deg.map whole, false⟩ ∧ x.cavok = false) ∧
    (∃ m x, MetarRegExp.MINIMUM_VISIBILITY.match (v.text ++ dir.getD []) = some m ∧
      minimumVisibility m = .ok x ∧
      x.vis = v.number.map whole ∧ x.direction = ⟨deg.map whole, false⟩) := by
  have hw : (VisGroup.metres v dir).WF := by
    refine ⟨hv, fun d e => ?_⟩
    rcases hd with ⟨h, -⟩ | ⟨d', n, h, -, hm⟩
    · rw [h] at e; cases e
    · rw [h] at e; cases e
      exact List.mem_map.2 ⟨_, hm, rfl⟩
  have hr : (VisGroup.metres v dir).raises = none ∧ (VisGroup.metres v dir).degrees = deg := by
    rcases hd with ⟨rfl, rfl⟩ | ⟨d, n, rfl, rfl, hm⟩
    · exact ⟨rfl, rfl⟩
    · have : ∀ p ∈ visSuffixes, p.2 ≠ none →
          (VisGroup.metres .undef (some p.1)).raises = none ∧
          (VisGroup.metres .undef (some p.1)).degrees = p.2 := by decide +kernel
      exact this _ hm (by simp)
  have hs : ∀ x, VisSays (.metres v dir) x → x.vis = v.number.map whole ∧
      x.direction = ⟨deg.map whole, false⟩ ∧ x.cavok = false := by
    rintro x ⟨h1, h2, h3⟩
    rw [hr.2] at h2
    refine ⟨h1, h2, ?_⟩
    cases hc : x.cavok with
    | false => rfl
    | true => cases h3.1 hc
  refine ⟨?_, fun hu => ?_, ?_⟩
  · obtain ⟨m, h1, -, h2⟩ := metarVis_match _ hw
    obtain ⟨x, hx, h3⟩ := h2 hr.1
    exact ⟨m, x, h1, hx, hs x h3⟩
  · obtain ⟨m, h1, -, h2⟩ := tafVis_match _ hw (by rintro d ⟨⟩; exact hu rfl)
    obtain ⟨x, hx, h3⟩ := h2 hr.1
    exact ⟨m, x, h1, hx, hs x h3⟩
  · obtain ⟨m, h1, -, h2⟩ := minVis_match v dir hw
    obtain ⟨x, hx, h3⟩ := h2 hr.1
    exact ⟨m, x, h1, hx, (hs x h3).1, (hs x h3).2.1⟩

/-- C22. A group in statute miles with an integer part, a fraction or both gives the stated amount
times 1852 metres, up to a relative error of 1e-15. -/
theorem C22_miles (r : Range) (hr : r.WF) (hu : r.unit = .sm)
    (hsome : r.integer ≠ none ∨ r.fraction ≠ none)
    (hz : ∀ a b, r.fraction = some (a, b) → digitVal b ≠ 0) (re : RE)
    (hre : re = MetarRegExp.VISIBILITY ∨ re = TafRegExp.VISIBILITY) :
    ∃ m x v, re.match r.text = some m ∧ prevailing m = .ok x ∧ x.vis = some v ∧
      Rel (1 / 10 ^ 15) v.val (r.amount * 1852) ∧ x.direction = ⟨none, false⟩ ∧ x.cavok = false := by
  have key : ∃ m, re.match r.text = some m ∧
      ((VisGroup.range r).raises = none → ∃ x, prevailing m = .ok x ∧ VisSays (.range r) x) := by
    rcases hre with rfl | rfl
    · obtain ⟨m, h1, -, h2⟩ := metarVis_match (.range r) hr
      exact ⟨m, h1, h2⟩
    · obtain ⟨m, h1, -, h2⟩ := tafVis_match (.range r) hr (by simp)
      exact ⟨m, h1, h2⟩
  obtain ⟨m, h1, h2⟩ := key
  have hn : (VisGroup.range r).raises = none := by
    cases he : (VisGroup.range r).raises with
    | none => rfl
    | some e =>
      rcases (VisGroup.raises_range r e).1 he with ⟨-, -, a, b, h, h0⟩ | ⟨h, -⟩
      · exact absurd h0 (hz a b h)
      · rw [hu] at h; cases h
  obtain ⟨x, hx, h3, h4, h5⟩ := h2 hn
  simp only [VisGroup.SaysMetres, hu] at h3
  rw [if_neg (by rintro ⟨h1, h2⟩; simp [h1, h2] at hsome)] at h3
  obtain ⟨v, hv, hrel⟩ := h3
  refine ⟨m, x, ⟨v, false⟩, h1, hx, hv, hrel, h4, ?_⟩
  cases hc : x.cavok with
  | false => rfl
  | true => cases h5.1 hc

/-- C23. A whole number of kilometres gives exactly 1000 times as many metres; `CAVOK` gives 10000
metres and sets the flag, which no other group sets. -/
theorem C23_kilometres (re : RE) (hre : re = MetarRegExp.VISIBILITY ∨ re = TafRegExp.VISIBILITY) :
    (∀ (bound : VisBound) (ds : PyStr) (joined : Bool), (ds.length = 1 ∨ ds.length = 2) →
      (∀ c ∈ ds, isDigit c = true) →
      ∃ m x, re.match (Range.mk bound (some ds) joined none .km).text = some m ∧
        prevailing m = .ok x ∧ x.vis = some (whole (1000 * digitsVal ds)) ∧ x.cavok = false) ∧
    (∃ m x, re.match py!"CAVOK" = some m ∧ prevailing m = .ok x ∧
      x.vis = some (whole 10000) ∧ x.direction = ⟨none, false⟩ ∧ x.cavok = true) ∧
    (∀ s m x, MetarRegExp.VISIBILITY.match s = some m → 10 ∉ s → prevailing m = .ok x →
      x.cavok = true → s = py!"CAVOK") ∧
    (∀ s m x, TafRegExp.VISIBILITY.match s = some m → 10 ∉ s → prevailing m = .ok x →
      x.cavok = true → s = py!"CAVOK") := by
  have key : ∀ w : VisGroup, w.WF → (∀ d, w ≠ .metres .undef d) → w.raises = none →
      ∃ m x, re.match w.text = some m ∧ prevailing m = .ok x ∧ VisSays w x := by
    intro w hw hu hr
    rcases hre with rfl | rfl
    · obtain ⟨m, h1, -, h2⟩ := metarVis_match w hw
      obtain ⟨x, h3, h4⟩ := h2 hr
      exact ⟨m, x, h1, h3, h4⟩
    · obtain ⟨m, h1, -, h2⟩ := tafVis_match w hw hu
      obtain ⟨x, h3, h4⟩ := h2 hr
      exact ⟨m, x, h1, h3, h4⟩
  refine ⟨fun bound ds joined hl hd => ?_, ?_, fun s m x hm hn hx hc => ?_, fun s m x hm hn hx hc => ?_⟩
  · obtain ⟨m, x, h1, h2, h3, -, h4⟩ := key (.range ⟨bound, some ds, joined, none, .km⟩)
      ⟨by rintro _ ⟨⟩; exact ⟨hl, hd⟩, by simp⟩ (by simp) rfl
    refine ⟨m, x, h1, h2, ?_, ?_⟩
    · rw [Nat.mul_comm]; exact h3
    · cases hc : x.cavok with
      | false => rfl
      | true => cases h4.1 hc
  · obtain ⟨m, x, h1, h2, h3, h4, h5⟩ := key .cavok trivial (by simp) rfl
    exact ⟨m, x, h1, h2, h3, h4, h5.2 rfl⟩
  · obtain ⟨w, hw, rfl⟩ := metarVis_only hm hn
    obtain ⟨m', h1, h2, h3⟩ := metarVis_match w hw
    rw [hm] at h1
    cases h1
    cases hr : w.raises with
    | some e => rw [h2 e hr] at hx; cases hx
    | none =>
      obtain ⟨y, hy, -, -, h4⟩ := h3 hr
      rw [hx] at hy
      cases hy
      rw [h4.1 hc]
      rfl
  · have hg : m.group .cavok ≠ none := by
      intro h0
      unfold prevailing at hx
      rw [h0] at hx
      cases h1 : prevailingSize (m.group .vis) (m.group .integer) (m.group .fraction) (m.group .units) with
      | error e => rw [h1] at hx; cases hx
      | ok v =>
        cases h2 : visDirection (m.group .dir) with
        | error e => rw [h1, h2] at hx; cases hx
        | ok d => rw [h1, h2] at hx; cases hx; cases hc
    have hl := taf_cavok_end hm hg hn
    obtain ⟨w, rest, hw, -, rfl, h2, h3⟩ := tafVis_begin hm
    cases hr : w.raises with
    | some e => rw [h2 e hr] at hx; cases hx
    | none =>
      obtain ⟨y, hy, -, -, h4⟩ := h3 hr
      rw [hx] at hy
      cases hy
      obtain rfl := h4.1 hc
      have h0 : rest.length = 0 := by
        rw [List.length_append] at hl
        have : (VisGroup.text .cavok).length = 5 := rfl
        omega
      rw [List.eq_nil_of_length_eq_zero h0, List.append_nil]
      rfl

/-- C24. What is accepted as METAR prevailing visibility is a well-formed group, and it raises
exactly: `ValueError` on the suffixes EE, EW, WE and WW; `ZeroDivisionError` on miles with a zero
denominator; `TypeError` on kilometres with a fraction and no integer. All other groups are
decoded. -/
theorem C24_raises :
    (∀ w : VisGroup, w.WF → ∃ m, MetarRegExp.VISIBILITY.match w.text = some m ∧
      ((∃ v d, w = .metres v (some d) ∧ d ∈ [py!"EE", py!"EW", py!"WE", py!"WW"]) →
        prevailing m = .error .value) ∧
      ((∃ r a b, w = .range r ∧ r.unit = .sm ∧ r.fraction = some (a, b) ∧ digitVal b = 0) →
        prevailing m = .error .zeroDiv) ∧
      ((∃ r a b, w = .range r ∧ r.unit = .km ∧ r.integer = none ∧ r.fraction = some (a, b)) →
        prevailing m = .error .type) ∧
      ((¬ ∃ v d, w = .metres v (some d) ∧ d ∈ [py!"EE", py!"EW", py!"WE", py!"WW"]) →
        (¬ ∃ r a b, w = .range r ∧ r.unit = .sm ∧ r.fraction = some (a, b) ∧ digitVal b = 0) →
        (¬ ∃ r a b, w = .range r ∧ r.unit = .km ∧ r.integer = none ∧ r.fraction = some (a, b)) →
        ∃ x, prevailing m = .ok x ∧ VisSays w x)) ∧
    ∀ s m, MetarRegExp.VISIBILITY.match s = some m → 10 ∉ s → ∃ w : VisGroup, w.WF ∧ s = w.text := by
  refine ⟨fun w hw => ?_, fun s m => metarVis_only⟩
  obtain ⟨m, h1, h2, h3⟩ := metarVis_match w hw
  refine ⟨m, h1, ?_, ?_, ?_, fun g1 g2 g3 => h3 ?_⟩
  · rintro ⟨v, d, rfl, hd⟩
    apply h2
    simp only [List.mem_cons, List.not_mem_nil, or_false] at hd
    unfold VisGroup.raises
    simp only [hd, if_true]
  · rintro ⟨r, a, b, rfl, hu, hf, hb⟩
    exact h2 _ ((VisGroup.raises_range r _).2 (.inl ⟨hu, rfl, a, b, hf, hb⟩))
  · rintro ⟨r, a, b, rfl, hu, hi, hf⟩
    exact h2 _ ((VisGroup.raises_range r _).2 (.inr ⟨hu, rfl, hi, by simp [hf]⟩))
  · cases he : w.raises with
    | none => rfl
    | some e =>
      exfalso
      cases w with
      | metres v dir =>
        cases dir with
        | none => cases he
        | some d =>
          apply g1
          refine ⟨v, d, rfl, ?_⟩
          unfold VisGroup.raises at he
          simp only at he
          split at he
          · next h => simpa using h
          · cases he
      | range r =>
        rcases (VisGroup.raises_range r e).1 he with ⟨hu, -, a, b, hf, hb⟩ | ⟨hu, -, hi, hf⟩
        · exact g2 ⟨r, a, b, rfl, hu, hf, hb⟩
        · cases hq : r.fraction with
          | none => exact hf hq
          | some p => exact g3 ⟨r, p.1, p.2, rfl, hu, hi, hq⟩
      | cavok => cases he

/-- C21-C23. The prevailing and the minimum visibility of a METAR and the prevailing visibility of
a trend and of a TAF change say what the group decoded in it states, and are empty without such a
group. -/
theorem C21_reports (db : Database) (clock : Clock) (code : PyStr) (a : Args) :
    (∀ r c, Metar.new db clock code a = .ok r →
      Decodes (Metar.handlers db (clock 2) a) (metarGroups r.body) c →
      ReadAt c 6 visGrammar Visibility.none r.core.prevailing ∧
      ReadAt c 7 minVisGrammar Visibility.none r.minimumVisibility) ∧
    (∀ r p text c, Metar.new db clock code a = .ok r → p ∈ r.weatherTrends.list →
      p.code = some text → Decodes ChangePeriod.handlers (bodyGroups text) c →
      ReadAt c 4 visGrammar Visibility.none p.core.prevailing) ∧
    (∀ r x c, Taf.new db clock code a = .ok r → x ∈ r.changes.list →
      Decodes ChangeForecasted.handlers (changeGroups x.code) c →
      ReadAt c 3 visGrammar Visibility.none x.core.prevailing) := by
  refine ⟨fun r c h hc => ?_, fun r p text c h hp ht hc => ?_, fun r x c h hx hc => ?_⟩
  · obtain ⟨_, -, ho, hR, hn⟩ := Metar.new_decodes h hc
    exact ⟨metarVis_reads.at hR.prevailing ho hn, minVis_reads.at hR.minimum ho hn⟩
  · obtain ⟨_, _, -, ho, -, -, hR, -, hn⟩ := Metar.trend_decodes h hp ht hc
    exact metarVis_reads.at hR.prevailing ho hn
  · obtain ⟨_, ho, -, -, hR, -, hn⟩ := Taf.change_decodes h hx hc
    exact metarVis_reads.at hR.prevailing ho hn

/-- C21-C23. In the body of a TAF a group is decoded as visibility when it begins with one, whatever
follows; the prevailing visibility says what that beginning states. A group that is a visibility as
a whole is read as a whole. -/
theorem C21_taf (db : Database) (clock : Clock) (code : PyStr) (a : Args) (r : Taf)
    (h : Taf.new db clock code a = .ok r) (c : List (PyStr × Nat))
    (hc : Decodes (Taf.handlers db (clock 1) a) (bodyGroups r.body) c) :
    (∀ g, (g, 8) ∈ c → ∃ (w : VisGroup) (rest : PyStr), tafVisGrammar.WF w ∧ g = w.text ++ rest ∧
      VisSays w r.core.prevailing) ∧
    (∀ w, tafVisGrammar.WF w → (w.text, 8) ∈ c → VisSays w r.core.prevailing) ∧
    ((∀ g, (g, 8) ∉ c) → r.core.prevailing = Visibility.none) := by
  obtain ⟨_, _, -, -, ho, hR, hn⟩ := Taf.new_decodes h hc
  refine ⟨fun g hg => ?_, fun w hw hg => ?_, hR.prevailing.absent⟩
  · obtain ⟨m, hm, hf⟩ := hR.prevailing.value ho hg
    obtain ⟨w, rest, h1, h2, h3, h4, h5⟩ := tafVis_begin hm
    refine ⟨w, rest, ⟨h1, h2⟩, h3, ?_⟩
    cases he : w.raises with
    | some e => rw [h4 e he] at hf; cases hf
    | none =>
      obtain ⟨y, hy, hs⟩ := h5 he
      rw [hf] at hy
      cases hy
      exact hs
  · obtain ⟨m, hm, hf⟩ := hR.prevailing.value ho hg
    obtain ⟨m', h1, h4, h5⟩ := tafVis_match w hw.1 hw.2
    rw [hm] at h1
    cases h1
    cases he : w.raises with
    | some e => rw [h4 e he] at hf; cases hf
    | none =>
      obtain ⟨y, hy, hs⟩ := h5 he
      rw [hf] at hy
      cases hy
      exact hs

/-- Groups for the theorems above. -/
example : (VisGroup.metres (.digits py!"1500") (some py!"SW")).WF ∧
    (VisGroup.metres (.digits py!"1500") (some py!"SW")).text = py!"1500SW" ∧
    (py!"SW", some 225) ∈ visSuffixes :=
  ⟨⟨⟨rfl, by decide⟩, by rintro _ ⟨⟩; decide⟩, by decide, by decide⟩

example : (Range.mk .below (some py!"1") true (some (49, 50)) .sm).WF ∧
    (Range.mk .below (some py!"1") true (some (49, 50)) .sm).text = py!"M1_1/2SM" ∧
    (Range.mk .below (some py!"1") true (some (49, 50)) .sm).amount * 1852 = 2778 := by
  refine ⟨⟨?_, ?_⟩, by decide, by decide +kernel⟩
  · rintro _ ⟨⟩; decide
  · rintro _ _ ⟨⟩; decide

example : (match Metar.new sampleDb sampleClock py!"METAR SKBO 151200Z 00000KT 1 1/2SM" {} with
    | .ok r => decide (r.core.prevailing.vis = some ⟨2778, false⟩)
    | .error _ => false) = true := by decide +kernel
example : (match Metar.new sampleDb sampleClock py!"METAR SKBO 151200Z 00000KT 9999 0350NW" {} with
    | .ok r => decide (r.core.prevailing.vis = some ⟨10000, false⟩ ∧
        r.minimumVisibility.vis = some ⟨350, false⟩ ∧
        r.minimumVisibility.direction = ⟨some ⟨315, false⟩, false⟩)
    | .error _ => false) = true := by decide +kernel
example : (match Taf.new sampleDb sampleClock py!"TAF SKBO 151100Z 1512/1612 00000KT 5000SWAN" {} with
    | .ok r => decide (r.core.prevailing.vis = some ⟨5000, false⟩)
    | .error _ => false) = true := by decide +kernel
example : metarErr py!"METAR SKBO 151200Z 00000KT 5000EE" = some .value := by decide +kernel
example : metarErr py!"METAR SKBO 151200Z 00000KT 1/2KM" = some .type := by decide +kernel
example : metarErr py!"METAR SKBO 151200Z 00000KT 1/0SM" = some .zeroDiv := by decide +kernel

end Verif.Props
