import Verif.Lemmas.Setters
import Verif.Props.Visibility
import Verif.Props.Dict

/-
C111: CAVOK set by hand.
-/

namespace Verif.Props
open Verif.Spec

/-- C111, METAR. After any assignments to `prevailing_visibility.cavok`, of which those of an object that is not a
`bool` raise `TypeError`: the last `bool` is the value, and the report is the former one if there was none. In the
dictionary just this one entry, which is there, is another; the text of the report, the flight rules and
`should_be_cavok` do not notice the assignments, and an assignment of the former value restores the report. -/
theorem C111_metar (db : Database) (clock : Clock) (code : PyStr) (a : Args) (r : Metar)
    (h : Metar.new db clock code a = .ok r) (as : List BoolArg) :
    (∀ x, (∃ e, r.setCavok x = .error e) ↔ x = .other) ∧ r.setCavok .other = .error .type ∧
    (lastBool as = none → r.setsCavok as = r) ∧
    (∀ b, lastBool as = some b →
      (r.setsCavok as).core.prevailing.cavok = b ∧
      ∃ d, r.dict db = .ok d ∧ (r.setsCavok as).dict db = .ok (putAt (.bool b) cavokPath d) ∧
        getAt cavokPath d = some (.bool r.core.prevailing.cavok) ∧
        getAt cavokPath (putAt (.bool b) cavokPath d) = some (.bool b)) ∧
    (r.setsCavok as).str = r.str ∧ (r.setsCavok as).core.flightRules = r.core.flightRules ∧
    (∀ s, ((r.setsCavok as).core.shouldBeCavok s).1 = (r.core.shouldBeCavok s).1) ∧
    r.setsCavok (as ++ [.bool r.core.prevailing.cavok]) = r := by
  have he := r.setsCavok_eq as
  obtain ⟨d, hd, -⟩ := C60_metar_dict db clock code a r h
  refine ⟨fun x => ⟨?_, ?_⟩, rfl, fun hb => ?_, fun b hb => ?_, ?_, ?_, fun s => ?_, ?_⟩
  · rintro ⟨e, hx⟩
    cases x with
    | other => rfl
    | bool b => cases hx
  · rintro rfl
    exact ⟨_, rfl⟩
  · rw [he, hb]
    rfl
  · rw [hb] at he
    have hs : (r.setsCavok as).dict db = .ok (putAt (.bool b) cavokPath d) := by
      rw [he]
      exact (Metar.dict_set db r b).trans (by rw [hd]; rfl)
    refine ⟨by rw [he]; rfl, d, hd, hs, Metar.dict_cavok hd, ?_⟩
    rw [Metar.dict_cavok hs, he]
    rfl
  · rw [he]; rfl
  · rw [he]; rfl
  · rw [he]; unfold Core.shouldBeCavok; rfl
  · rw [r.setsCavok_eq, lastBool_concat]
    rfl

/-- C111, TAF. After any assignments to `prevailing_visibility.cavok`, of which those of an object that is not a
`bool` raise `TypeError`: the last `bool` is the value, and the report is the former one if there was none. In the
dictionary just this one entry, which is there, is another; the text of the report, the flight rules and
`should_be_cavok` do not notice the assignments, and an assignment of the former value restores the report. -/
theorem C111_taf (db : Database) (clock : Clock) (code : PyStr) (a : Args) (r : Taf)
    (h : Taf.new db clock code a = .ok r) (as : List BoolArg) :
    (∀ x, (∃ e, r.setCavok x = .error e) ↔ x = .other) ∧ r.setCavok .other = .error .type ∧
    (lastBool as = none → r.setsCavok as = r) ∧
    (∀ b, lastBool as = some b →
      (r.setsCavok as).core.prevailing.cavok = b ∧
      ∃ d, r.dict db = .ok d ∧ (r.setsCavok as).dict db = .ok (putAt (.bool b) cavokPath d) ∧
        getAt cavokPath d = some (.bool r.core.prevailing.cavok) ∧
        getAt cavokPath (putAt (.bool b) cavokPath d) = some (.bool b)) ∧
    (r.setsCavok as).str = r.str ∧
    (r.setsCavok as).core.flightRules = r.core.flightRules ∧
    (∀ s, ((r.setsCavok as).core.shouldBeCavok s).1 = (r.core.shouldBeCavok s).1) ∧
    r.setsCavok (as ++ [.bool r.core.prevailing.cavok]) = r := by
  have he := r.setsCavok_eq as
  obtain ⟨d, hd, -⟩ := C60_taf_dict db clock code a r h
  refine ⟨fun x => ⟨?_, ?_⟩, rfl, fun hb => ?_, fun b hb => ?_, ?_, ?_, fun s => ?_, ?_⟩
  · rintro ⟨e, hx⟩
    cases x with
    | other => rfl
    | bool b => cases hx
  · rintro rfl
    exact ⟨_, rfl⟩
  · rw [he, hb]
    rfl
  · rw [hb] at he
    have hs : (r.setsCavok as).dict db = .ok (putAt (.bool b) cavokPath d) := by
      rw [he]
      exact (Taf.dict_set db r b).trans (by rw [hd]; rfl)
    refine ⟨by rw [he]; rfl, d, hd, hs, Taf.dict_cavok hd, ?_⟩
    rw [Taf.dict_cavok hs, he]
    rfl
  · rw [he]; rfl
  · rw [he]; rfl
  · rw [he]; unfold Core.shouldBeCavok; rfl
  · rw [r.setsCavok_eq, lastBool_concat]
    rfl

/-- A prevailing visibility that no group gave, or that says what a group states. -/
def Stated (v : Visibility) : Prop := v = Visibility.none ∨ ∃ w : VisGroup, VisSays w v

theorem stated_of_read {c : List (PyStr × Nat)} {i : Nat} {v : Visibility}
    (h : ReadAt c i visGrammar Visibility.none v) : Stated v := by
  by_cases hg : ∃ g, (g, i) ∈ c
  · obtain ⟨g, hg⟩ := hg
    obtain ⟨w, hw, rfl⟩ := h.form g hg
    exact .inr ⟨w, h.value w hw hg⟩
  · exact .inl (h.absent fun g h' => hg ⟨g, h'⟩)

theorem Stated.off {v : Visibility} (h : Stated v) (hc : v.cavok = true) :
    v.vis = some (whole 10000) ∧ v.direction = ⟨none, false⟩ := by
  rcases h with rfl | ⟨w, h1, h2, h3⟩
  · cases hc
  · cases h3.1 hc
    exact ⟨h1, h2⟩

/-- C111. CAVOK taken back by hand from the body of a METAR, a trend, the body of a TAF or a change of which it was
reported: the visibility is then `10.0 km` in words, and CAVOK given by hand shows in the words of every prevailing
visibility. -/
theorem C111_words (db : Database) (clock : Clock) (code : PyStr) (a : Args) (v : Visibility)
    (h : (∃ r, Metar.new db clock code a = .ok r ∧
        (v = r.core.prevailing ∨ ∃ p ∈ r.weatherTrends.list, v = p.core.prevailing)) ∨
      (∃ r, Taf.new db clock code a = .ok r ∧
        (v = r.core.prevailing ∨ ∃ x ∈ r.changes.list, v = x.core.prevailing))) :
    (v.cavok = true → ∃ v', v.setCavok (.bool false) = .ok v' ∧ v'.str = py!"10.0 km" ∧ v'.vis = v.vis) ∧
    ∃ v', v.setCavok (.bool true) = .ok v' ∧ v'.str = py!"Ceiling and Visibility OK" ∧ v'.vis = v.vis := by
  have hS : Stated v := by
    rcases h with ⟨r, h, rfl | ⟨p, hp, rfl⟩⟩ | ⟨r, h, rfl | ⟨x, hx, rfl⟩⟩
    · obtain ⟨c, hc⟩ : ∃ c, Decodes (Metar.handlers db (clock 2) a) (metarGroups r.body) c :=
        ⟨_, (decodes_iff _ _ _).2 rfl⟩
      exact stated_of_read ((C21_reports db clock code a).1 r c h hc).1
    · obtain ⟨text, ht⟩ : ∃ text, p.code = some text := by
        obtain ⟨-, time, -, -, -, -, -, -, -, -, -, e, -⟩ := Metar.new_reading h
        obtain ⟨t, -, h1⟩ := e.right p hp
        obtain ⟨-, -, -, -, -, -, -, -, -, -, k, -⟩ := ChangePeriod.new_reading h1
        exact ⟨_, k⟩
      obtain ⟨c, hc⟩ : ∃ c, Decodes ChangePeriod.handlers (bodyGroups text) c := ⟨_, (decodes_iff _ _ _).2 rfl⟩
      exact stated_of_read ((C21_reports db clock code a).2.1 r p text c h hp ht hc)
    · obtain ⟨c, hc⟩ : ∃ c, Decodes (Taf.handlers db (clock 1) a) (bodyGroups r.body) c :=
        ⟨_, (decodes_iff _ _ _).2 rfl⟩
      obtain ⟨h1, -, h2⟩ := C21_taf db clock code a r h c hc
      by_cases hg : ∃ g, (g, 8) ∈ c
      · obtain ⟨g, hg⟩ := hg
        obtain ⟨w, -, -, -, hw⟩ := h1 g hg
        exact .inr ⟨w, hw⟩
      · exact .inl (h2 fun g h' => hg ⟨g, h'⟩)
    · obtain ⟨c, hc⟩ : ∃ c, Decodes ChangeForecasted.handlers (changeGroups x.code) c :=
        ⟨_, (decodes_iff _ _ _).2 rfl⟩
      exact stated_of_read ((C21_reports db clock code a).2.2 r x c h hx hc)
  refine ⟨fun hc => ⟨_, rfl, ?_, rfl⟩, _, rfl, rfl, rfl⟩
  obtain ⟨h1, h2⟩ := hS.off hc
  obtain ⟨cd, vis, dir, cv⟩ := v
  simp only at h1 h2
  subst h1 h2
  have k : (⟨none, some (whole 10000), ⟨none, false⟩, false⟩ : Visibility).str = py!"10.0 km" := by decide +kernel
  exact k

/-- Assignments to a METAR: the text of the report keeps the line of CAVOK, the visibility does not. -/
example : (metarOk sampleClock py!"METAR SBGR 071200Z 27015KT CAVOK 25/15 Q1013 TEMPO 3000 BR").map (fun r =>
      let r' := r.setsCavok [.bool true, .other, .bool false, .other]
      (r.core.prevailing.str, r'.core.prevailing.str, contains r'.str py!"Ceiling and Visibility OK",
        lastBool [.bool true, .other, .bool false, .other])) =
    some (py!"Ceiling and Visibility OK", py!"10.0 km", true, some false) := by
  decide +kernel

example : (tafOk sampleClock py!"TAF SBGR 071000Z 0712/0818 27015KT 3000 OVC010 BECMG 0800/0802 CAVOK").map (fun r =>
      let r' := r.setsCavok [.other, .bool true]
      (r.core.prevailing.str, r'.core.prevailing.str, r'.core.flightRules,
        r'.changes.list.map fun x => (x.core.prevailing.setCavok (.bool false)).toOption.map Visibility.str)) =
    some (py!"3.0 km", py!"Ceiling and Visibility OK", some py!"IFR", [some py!"10.0 km"]) := by
  decide +kernel

end Verif.Props
