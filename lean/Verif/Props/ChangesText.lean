import Verif.Spec.ChangesText
import Verif.Props.TafRecordText
import Verif.Props.Lists

/-
C81: the text of the list of changes of a TAF.
-/

namespace Verif.Props
open Spec

/-- The text of a change, by the period it has. -/
theorem change_listed {c : TafChange} (h : c.WF) {v : Valid} (hv : v.from_.time.valid = true)
    (hy : v.from_.time.year < 9999) {x : ChangeForecasted} (hx : ChangeForecasted.new (changeCode c) v = .ok x) :
    c.Listed x.indicator.valid.from_.time x.indicator.valid.until_.time x.indicator.str := by
  have hcode : replace (changeCode c) py!"_" py!" " = join [32] c.words := by
    rw [← shown_eq]; exact change_shown h
  have htext : splitC 32 (ChangeForecasted.text (changeCode c)) = changeGroupsOf c := by
    unfold ChangeForecasted.text
    rw [hcode]
    exact change_groups h
  obtain ⟨asg, p1, e1, e2, e3, e4, -, e6, -⟩ := ChangeForecasted.new_reading hx
  obtain ⟨hd, -⟩ := change_decodes h htext
  have hcons : consumed (splitC 32 (ChangeForecasted.text (changeCode c))) asg = changePlacesOf c := by
    rw [(decodes_iff _ _ _).1 hd]
    exact (decodes_iff _ _ _).1 ⟨asg, e1, e2, rfl⟩
  rw [hcons] at e3 e4
  have hT := change_taken h
  obtain ⟨t0, f1, f2⟩ := ChangeForecasted.indicator_reading e3 e4
  have e9 : x.indicator = p1.indicator := by rw [e6]
  rw [e9]
  unfold TafIndicator.str
  rcases f1 with ⟨g, m, hg, hm, hi⟩ | ⟨hg, -⟩
  · rw [mem_taken, hT.indicator, List.mem_singleton] at hg
    subst hg
    obtain ⟨i, q1, q2, q3⟩ := kind_new (fun g hg => (h.fm g hg).1) hv hy hm
    have := Except.ok.inj (q1.symm.trans hi)
    subst this
    rcases f2 with ⟨g, m', hg, hm', hi'⟩ | ⟨hg, hi'⟩
    · rw [mem_taken, hT.valid, List.mem_map] at hg
      obtain ⟨w, hw, rfl⟩ := hg
      rw [Option.mem_toList] at hw
      have hno : ∀ g, c.kind ≠ .fm g := by
        intro g hg
        have := (h.fm g hg).2
        rw [hw] at this
        cases this
      obtain ⟨i', r1, r2, r3⟩ := setValidPeriod_new h hw hv hy hm' q2
      have := Except.ok.inj (r1.symm.trans hi')
      subst this
      rw [set_translation hno q2 r1, kind_translation hno hm q1, translation_text (by simp), period_str]
      unfold TafChange.Listed
      rw [hw]
      cases hk : c.kind with
      | fm g => exact absurd hk (hno g)
      | tempo => rfl
      | becmg => rfl
      | prob f t => rfl
    · have hno : c.valid = none := by
        cases hc : c.valid with
        | none => rfl
        | some w => exact absurd (mem_taken.2 (by rw [hT.valid, hc]; simp)) (hg w.text)
      rw [hi']
      unfold TafChange.Listed
      rw [hno]
      cases hk : c.kind with
      | fm g =>
        rw [hk] at hm
        rw [fm_translation hm q1, translation_text (by simp [Valid.str]), period_str]
      | tempo =>
        rw [kind_translation (by simp [hk]) hm q1, hk]
        rfl
      | becmg =>
        rw [kind_translation (by simp [hk]) hm q1, hk]
        rfl
      | prob f t =>
        rw [kind_translation (by simp [hk]) hm q1, hk]
        cases f <;> cases t <;> rfl
  · exact absurd (mem_taken.2 (by rw [hT.indicator]; simp)) (hg c.kind.group)

theorem last_below {p : Nat → Prop} {n : Nat} (hb : ∀ j, p j → j < n) {j : Nat} (hj : p j) :
    ∃ j, p j ∧ ∀ j', j < j' → ¬ p j' := by
  by_cases h : ∃ j', j < j' ∧ p j'
  · obtain ⟨j', h1, h2⟩ := h
    have := hb j hj
    have := hb j' h2
    exact last_below hb h2
  · exact ⟨j, hj, fun j' h1 h2 => h ⟨j', h1, h2⟩⟩
termination_by n - j

/-- C81. `str` of the changes of a TAF given by a record: for each change, in order, its meaning and the
period it has in the end, which for an FM change is the one that later changes leave it; each is followed by
a line break, and there is another one between neighbours. -/
theorem C81_changes (db : Database) (clock : Clock) (a : Args) (w : TafRecord) (y mo : Nat) (hs : Sane clock)
    (hy : a.year.getD (clock 1).year = (y : Int)) (hmo : a.month.getD (clock 1).month = (mo : Int))
    (hy1 : 1000 ≤ y) (hy2 : y < 9998) (hw : w.WF) (ht : IsTime ⟨y, mo, w.day, w.hour, w.minute⟩) (code : PyStr)
    (hcode : normalizeCode code = join [32] w.words) :
    ∃ (r : Taf) (ts : List PyStr), Taf.new db clock code a = .ok r ∧ r.changes.list.length = w.changes.length ∧
      ts.length = w.changes.length ∧
      (∀ (k : Nat) c x t, w.changes[k]? = some c → r.changes.list[k]? = some x → ts[k]? = some t →
        c.Listed x.indicator.valid.from_.time x.indicator.valid.until_.time t) ∧
      Joined py!"\n" (ts.map (· ++ py!"\n")) (changesStr r.changes).1 := by
  have hdom : (1 ≤ w.day ∧ w.day ≤ 31) ∧ w.hour ≤ 23 ∧ w.minute ≤ 59 :=
    ⟨⟨ht.day.1, isTime_day ht⟩, ht.hour, ht.minute⟩
  have htv := (isTime_iff _).1 ht
  obtain ⟨r, hr, hsaid, -⟩ := taf_code db clock a w y mo hs hy hmo hy1 hy2 hw ht code hcode
  obtain ⟨-, -, hsec⟩ := taf_sections hw hdom
  rw [← hcode] at hsec
  obtain ⟨-, hb, hcs⟩ := Taf.new_sections hr
  rw [hsec] at hb hcs
  obtain ⟨cs, hE, hB⟩ := C46_report db clock code a r hr
  have hne : ∀ c ∈ w.changes.map changeCode, c ≠ [] := by
    intro c hc
    obtain ⟨d, hd, rfl⟩ := List.mem_map.1 hc
    exact changeCode_ne d
  rw [hcs, List.filter_eq_self.2 fun c hc => by simpa using hne c hc] at hE
  have hlen : cs.length = w.changes.length := by
    have := hE.length
    rw [List.length_map] at this
    omega
  refine ⟨r, r.changes.list.map fun x => x.indicator.str, hr, by rw [hB.1, hlen],
    by rw [List.length_map, hB.1, hlen], ?_, ?_⟩
  · intro k c x t hk hx hkt
    rw [List.getElem?_map, hx] at hkt
    cases hkt
    obtain ⟨x0, h1, h2⟩ := each_get hE (k := k) (a := changeCode c) (by rw [List.getElem?_map, hk]; rfl)
    have hv : r.valid.from_.time.valid = true ∧ r.valid.from_.time.year < 9999 := by
      cases hv : w.valid with
      | none =>
        have hno := fun hn => hw.period hn hv
        have : w.changes = [] := Classical.byContradiction hno
        rw [this] at hk
        cases hk
      | some g =>
        obtain ⟨s1, -, -⟩ := hsaid.valid g hv
        have hg := (hw.valid g hv).2.1.le
        obtain ⟨v1, v2, v3⟩ := takes_year htv (by omega) s1
        exact ⟨v1, by simp only at v3; omega⟩
    have hwf := hw.changes.2 c (List.mem_of_getElem? hk)
    have hl := change_listed hwf hv.1 hv.2 h2
    obtain ⟨x', f1, f2, f3, f4⟩ := hB.2 k x0 h1
    rw [hx] at f1
    cases f1
    by_cases hcl : ∃ j, ClosedBy cs k j
    · obtain ⟨j, hj⟩ := hcl
      obtain ⟨j, hj, hlast⟩ := last_below (n := cs.length)
        (fun j h => by obtain ⟨z, hz, -⟩ := h.2.1; exact (List.getElem?_eq_some_iff.1 hz).1) hj
      obtain ⟨z, hz, -⟩ := hj.2.1
      obtain ⟨u, -, hi⟩ := f4 j z hz hj hlast
      obtain ⟨xx, g1, g2⟩ := hj.2.2.1
      rw [h1] at g1
      cases g1
      obtain ⟨x1, h3, -, -, h4, -⟩ := change_new hwf hv.1 hv.2
      have := Except.ok.inj (h3.symm.trans h2)
      subst this
      obtain ⟨g, hg⟩ := (fm_kind h4).1 g2
      show c.Listed _ _ x.indicator.str
      rw [hi]
      unfold TafChange.Listed TafIndicator.str until_
      rw [hg]
      simp only
      rw [translation_text (by simp)]
      simp [periodText, Time.str, instant_str]
    · show c.Listed _ _ x.indicator.str
      rw [f3 fun j hj => hcl ⟨j, hj⟩]
      exact hl
  · have e : (changesStr r.changes).1 =
        join py!"\n" ((r.changes.list.map fun x => x.indicator.str).map (· ++ py!"\n")) := by
      unfold changesStr
      rw [List.map_map]
      rfl
    rw [e]
    exact join_joined _ _

/-- The sample meets the hypotheses. The FM change, which the text of the report shows until the end of the
report, ends in the list of changes an hour before BECMG begins. -/
example : ∃ (r : Taf) (ts : List PyStr), Taf.new sampleDb sampleClock (join [32] sampleTaf.words) {} = .ok r ∧
    r.changes.list.length = 4 ∧ ts.length = 4 ∧
      (∀ (k : Nat) c x t, sampleTaf.changes[k]? = some c → r.changes.list[k]? = some x → ts[k]? = some t →
        c.Listed x.indicator.valid.from_.time x.indicator.valid.until_.time t) ∧
    Joined py!"\n" (ts.map (· ++ py!"\n")) (changesStr r.changes).1 :=
  C81_changes sampleDb sampleClock {} sampleTaf 2024 6 sane_sample.1 rfl rfl (by decide) (by decide) sampleTaf_wf
    ⟨by decide, by decide, ⟨by decide, 30, by decide, by decide⟩, by decide, by decide⟩ _ (by decide +kernel)

example : (tafOk sampleClock (join [32] sampleTaf.words)).map (fun r => (changesStr r.changes).1) = some (join py!"\n"
    [py!"temporary from 2024-06-15 12:00:00 until 2024-06-15 14:00:00", [],
     py!"from 2024-06-15 18:00:00 until 2024-06-15 23:00:00", [],
     py!"probability 30% temporary from 2024-06-15 20:00:00 until 2024-06-15 22:00:00", [],
     py!"becoming from 2024-06-16 00:00:00 until 2024-06-16 02:00:00", []]) := by
  decide +kernel

end Verif.Props
