import Verif.Lemmas.RangeForms
import Verif.Lemmas.Temperatures
import Verif.Lemmas.Clouds
import Verif.Spec.Runway

/-
Decoding of runway range, wind shear, sea state and runway state groups.
-/

namespace Verif
open Spec

/-! ### Runways -/

theorem digits2 {ds : PyStr} (hl : ds.length = 2) (hd : Digits ds) :
    ∃ a b, ds = [a, b] ∧ isDigit a = true ∧ isDigit b = true := by
  match ds, hl with
  | [a, b], _ => exact ⟨a, b, rfl, hd a (by simp), hd b (by simp)⟩

theorem side_not_digit (s : Side) : ∃ k, s.text = [k] ∧ isDigit k = false := by
  cases s <;> exact ⟨_, rfl, by decide⟩

theorem runway_length (r : RunwayCode) (h : r.WF) :
    r.text.length = if r.side.isSome then 3 else 2 := by
  unfold RunwayCode.text
  rcases r with ⟨ds, _ | (_ | _ | _)⟩ <;> simp [sideText, Side.text, h.1]

theorem setRunwayName_side {ds : PyStr} (s : Side) (hl : ds.length = 2) (hd : Digits ds) :
    setRunwayName (some (ds ++ s.text)) = some (ds ++ py!" " ++ s.word) := by
  obtain ⟨a, b, rfl, ha, hb⟩ := digits2 hl hd
  have key : ∀ (k : Nat) (w : PyStr), isDigit k = false →
      replace [a, b, k] [k] w = [a, b] ++ w := by
    intro k w hk
    have na : ¬ k = a := by rintro rfl; rw [ha] at hk; cases hk
    have nb : ¬ k = b := by rintro rfl; rw [hb] at hk; cases hk
    simp [replace, replaceGo, na, nb]
  cases s
  · exact congrArg some (key 82 _ (by decide))
  · exact congrArg some (key 76 _ (by decide))
  · exact congrArg some (key 67 _ (by decide))

theorem runway_spoken (r : RunwayCode) (h : r.WF) : setRunwayName (some r.text) = some r.spoken := by
  obtain ⟨ds, _ | s⟩ := r
  · have hl : ds.length = 2 := h.1
    simp only [RunwayCode.spoken, RunwayCode.text, sideText, List.append_nil, RunwayCode.plain,
      setRunwayName, hl]
    rw [if_neg (by omega)]
    split
    · rfl
    · split <;> rfl
  · rw [show (RunwayCode.mk ds (some s)).text = ds ++ s.text from rfl, setRunwayName_side s h.1 h.2]
    have hl := runway_length _ h
    simp only [Option.isSome_some, if_true] at hl
    have h1 : (RunwayCode.mk ds (some s)).text ≠ py!"88" := by intro e; rw [e] at hl; cases hl
    have h2 : (RunwayCode.mk ds (some s)).text ≠ py!"99" := by intro e; rw [e] at hl; cases hl
    unfold RunwayCode.spoken
    rw [if_neg h1, if_neg h2]
    rfl

/-- A class of the letters of the sides. -/
def SideClass (k : CC) : Prop := ∀ c, k.mem c = true ↔ ∃ s : Side, s.text = [c]

theorem sideClass_of {k : CC} (h1 : ∀ s : Side, ∀ c, s.text = [c] → k.mem c = true)
    (h2 : ∀ c, k.mem c = true → c = 82 ∨ c = 76 ∨ c = 67) : SideClass k := by
  intro c
  constructor
  · intro h
    rcases h2 c h with rfl | rfl | rfl
    · exact ⟨.right, rfl⟩
    · exact ⟨.left, rfl⟩
    · exact ⟨.center, rfl⟩
  · rintro ⟨s, h⟩
    exact h1 s c h

theorem sideRLC_class : SideClass sideRLC := by
  refine sideClass_of (fun s c h => ?_) (fun c h => ?_)
  · cases s <;> (simp only [Side.text, List.cons.injEq, and_true] at h; subst h; decide)
  · simp [sideRLC, CC.mem, CC.ranges, inRanges] at h; omega

theorem sideRCL_class : SideClass sideRCL := by
  refine sideClass_of (fun s c h => ?_) (fun c h => ?_)
  · cases s <;> (simp only [Side.text, List.cons.injEq, and_true] at h; subst h; decide)
  · simp [sideRCL, CC.mem, CC.ranges, inRanges] at h; omega

theorem runway_shape {k : CC} (hk : SideClass k) (r : RunwayCode) (h : r.WF) :
    ∃ ks ∈ [[CC.digit, .digit], [.digit, .digit, k]], HasShape ks r.text := by
  obtain ⟨ds, o⟩ := r
  obtain ⟨a, b, e, ha, hb⟩ := digits2 h.1 h.2
  simp only at e
  subst e
  cases o with
  | none => exact ⟨_, List.mem_cons_self, .cons ha (.cons hb .nil)⟩
  | some s =>
    obtain ⟨c, hc, -⟩ := side_not_digit s
    refine ⟨_, List.mem_cons_of_mem _ List.mem_cons_self, ?_⟩
    show HasShape _ ([a, b] ++ s.text)
    rw [hc]
    exact .cons ha (.cons hb (.cons ((hk c).2 ⟨s, hc⟩) .nil))

theorem runway_shape_inv {k : CC} (hk : SideClass k) {t : PyStr}
    (h : ∃ ks ∈ [[CC.digit, .digit], [.digit, .digit, k]], HasShape ks t) :
    ∃ r : RunwayCode, r.WF ∧ t = r.text := by
  obtain ⟨ks, hks, h⟩ := h
  simp only [List.mem_cons, List.not_mem_nil, or_false] at hks
  have wf : ∀ a b o, CC.digit.mem a = true → CC.digit.mem b = true → (RunwayCode.mk [a, b] o).WF := by
    intro a b o ha hb
    refine ⟨rfl, ?_⟩
    intro c hc
    simp only [List.mem_cons, List.not_mem_nil, or_false] at hc
    rcases hc with rfl | rfl <;> assumption
  rcases hks with rfl | rfl
  · obtain ⟨a, _, rfl, ha, h⟩ := h
    obtain ⟨b, _, rfl, hb, h⟩ := h
    cases h
    exact ⟨⟨[a, b], none⟩, wf _ _ _ ha hb, rfl⟩
  · obtain ⟨a, _, rfl, ha, h⟩ := h
    obtain ⟨b, _, rfl, hb, h⟩ := h
    obtain ⟨c, _, rfl, hc, h⟩ := h
    cases h
    obtain ⟨s, hs⟩ := (hk c).1 hc
    exact ⟨⟨[a, b], some s⟩, wf _ _ _ ha hb, by simp [RunwayCode.text, sideText, hs]⟩

theorem runway_slot {k : CC} (hk : SideClass k) (c : Cap) (r : RunwayCode) (h : r.WF) :
    (Slot.runway k c).Has r.text (some c) := by
  unfold Slot.runway
  rw [Slot.shapes_has]
  exact ⟨runway_shape hk r h, rfl⟩

theorem runway_slot_inv {k : CC} (hk : SideClass k) {c : Cap} {t : PyStr} {o : Option Cap}
    (h : (Slot.runway k c).Has t o) : ∃ r : RunwayCode, r.WF ∧ t = r.text := by
  unfold Slot.runway at h
  rw [Slot.shapes_has] at h
  exact runway_shape_inv hk h.1

end Verif
