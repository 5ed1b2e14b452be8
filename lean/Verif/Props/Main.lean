import Verif.Model.Main
import Verif.Props.Output
import Verif.Props.Refusal
import Verif.Props.Moved

/-
C113: what running the package prints.
-/

namespace Verif.Props
open Verif Verif.Spec

/-- The METAR of the program is read at any time. -/
theorem main_read (db : Database) {clock : Clock} (hs : Sane clock) :
    ∃ r, Metar.new db clock mainText {} = .ok r := by
  obtain ⟨h1, h2, h3, h4⟩ := hs 2
  have hday : ∀ h : Nat, h ≤ 23 → IsTime ⟨(clock 2).year, (clock 2).month, 16, h, 0⟩ := by
    intro h hh
    rw [isTime_iff, DT.valid_iff]
    have hd := (dimL_pos (isLeap (clock 2).year) (clock 2).month h3 h4).1
    refine ⟨⟨by simp only; omega, h2, h3, h4, by simp, ?_⟩, by simp only; omega, by simp⟩
    simp only
    rw [daysInMonth_eq]
    omega
  have hread : MetarRead db clock mainText {} (clock 2).year (clock 2).month none := by
    refine ⟨[(py!"METAR", 0), (py!"MROC", 1), (py!"161900Z", 2), (py!"09014KT", 4), (py!"070V130", 5),
      (py!"CAVOK", 6), (py!"29/16", 18), (py!"A2999", 19)], [none, none, none, none, none, none, none, none],
      [[(py!"BECMG", 0), (py!"08015G25KT", 3)]], [none],
      ?_, ?_, ?_, ?_, ?_⟩
    · have h : Decodes (Metar.handlers sampleDb (sampleClock 2) {})
          (metarGroups (metarSections (normalizeCode mainText)).1) _ := (decodes_iff _ _ _).2 rfl
      have e : consumed (metarGroups (metarSections (normalizeCode mainText)).1)
          (assign (Metar.handlers sampleDb (sampleClock 2) {}) 0
            (metarGroups (metarSections (normalizeCode mainText)).1)) =
          [(py!"METAR", 0), (py!"MROC", 1), (py!"161900Z", 2), (py!"09014KT", 4), (py!"070V130", 5),
            (py!"CAVOK", 6), (py!"29/16", 18), (py!"A2999", 19)] := by decide +kernel
      rw [e] at h
      exact decodes_regexps (by rfl) h
    · refine .cons rfl (.cons rfl (.cons ?_ (.cons rfl (.cons rfl (.cons ?_ (.cons rfl (.cons rfl .nil)))))))
      · exact ⟨py!"16", py!"19", py!"00", rfl, rfl, rfl, rfl, .inl ⟨hday 19 (by omega), rfl⟩⟩
      · exact ⟨.cavok, by simp [VisGroup.WF], rfl, rfl⟩
    · rw [show trendTexts _ = [py!"BECMG 08015G25KT"] by decide +kernel]
      exact .cons ((decodes_iff _ _ _).2 (by decide +kernel)) .nil
    · exact .cons ⟨[none, none], .cons rfl (.cons rfl .nil), rfl⟩ .nil
    · refine .fine rfl (fun _ => ?_) rfl (by simp)
      rintro ⟨d, h, i, hg, l1, l2, l3, hu⟩
      simp only [List.mem_cons, Prod.mk.injEq, List.not_mem_nil, or_false] at hg
      have hg : d ++ h ++ i ++ py!"Z" = py!"161900Z" := by
        rcases hg with hg | hg | hg | hg | hg | hg | hg | hg
        · exact absurd hg.2 (by decide)
        · exact absurd hg.2 (by decide)
        · exact hg.1
        · exact absurd hg.2 (by decide)
        · exact absurd hg.2 (by decide)
        · exact absurd hg.2 (by decide)
        · exact absurd hg.2 (by decide)
        · exact absurd hg.2 (by decide)
      obtain ⟨rfl, rfl, rfl⟩ := append_three (d := py!"16") (e := py!"19") (f := py!"00") (z := py!"Z")
        hg l1 l2
      refine hu ⟨⟨(clock 2).year, (clock 2).month, 16, 21, 0⟩, hday 21 (by omega), ?_⟩
      have e : ∀ n : Nat, (((n + 15) * 24 + 21) * 60 + 0 : Nat) = (((n + 15) * 24 + 19) * 60 + 0 : Nat) + (120 : Int) := by
        omega
      exact e _
  have := (C73_metar db clock mainText {} (clock 2).year (clock 2).month rfl rfl h1 h2 h3 h4
    (by decide) hs rfl).2 none hread
  cases hr : Metar.new db clock mainText {} with
  | ok r => exact ⟨r, rfl⟩
  | error e => rw [hr] at this; cases this

/-- C113. Running the package prints one line, the sections of its METAR, and raises nothing, whatever the
tables, the month and the year. The trend is recognised behind the remark. -/
theorem C113_main (db : Database) (clock : Clock) (hs : Sane clock) :
    mainProgram db clock = ⟨[py!"['METAR MROC 161900Z 09014KT 070V130 CAVOK 29/16 A2999', 'BECMG 08015G25KT', 'RMK VEL MAX VTO 25KT']"],
      .ok ()⟩ := by
  obtain ⟨r, hr⟩ := main_read db hs
  obtain ⟨t0, time, asg, r1, -, -, -, -, -, -, -, hE, -, -, -, hsec, -⟩ := Metar.new_reading hr
  have hl : (Metar.printing db clock mainText {}).lines = [] := by
    refine (C113_count db clock mainText {} r hr).2 fun p hp text c hc hd => ?_
    obtain ⟨t, ht, hnew⟩ := hE.right p hp
    obtain ⟨-, -, -, -, -, -, -, -, -, -, e7, -⟩ := ChangePeriod.new_reading hnew
    rw [show (Metar.trendParts (normalizeCode mainText)).filter (· ≠ []) = [py!"BECMG 08015G25KT"] by
      decide +kernel, List.mem_singleton] at ht
    subst ht
    rw [e7, Option.some.injEq] at hc
    rw [(decodes_iff _ _ _).1 hd, ← hc]
    decide +kernel
  have hsec : r.sections = [py!"METAR MROC 161900Z 09014KT 070V130 CAVOK 29/16 A2999", py!"BECMG 08015G25KT",
      py!"RMK VEL MAX VTO 25KT"] := by
    rw [hsec]
    show [(metarSections (normalizeCode mainText)).1, (metarSections (normalizeCode mainText)).2.1,
      (metarSections (normalizeCode mainText)).2.2] = _
    decide +kernel
  unfold mainProgram Out.andThen
  rw [C113_result, hr, hl]
  simp only [hsec]
  rfl

example : Sane sampleClock ∧ (mainProgram sampleDb sampleClock).lines.length = 1 ∧
    (mainProgram sampleDb sampleClock).lines = (mainProgram sampleDb fun _ => ⟨9999, 12⟩).lines := by
  refine ⟨?_, ?_, ?_⟩
  · intro n; exact (by decide : 1000 ≤ 2024 ∧ 2024 ≤ 9999 ∧ 1 ≤ 6 ∧ 6 ≤ 12)
  · decide +kernel
  · decide +kernel

end Verif.Props
