import Verif.Lemmas.RecentForms
import Verif.Lemmas.Weather

/-
Decoding of recent weather groups.
-/

namespace Verif
open Spec

/-- A text of two letters as a word. -/
def word2 : PyStr → Word2
  | [a, b] => (a, b)
  | _ => (0, 0)

/-- The words of a recent weather group. -/
def RecentGroup.picks (w : RecentGroup) : List (Option Word2) :=
  [w.descriptor.map fun x => word2 x.text, w.precipitation.map fun x => word2 x.text,
   w.obscuration.map fun x => word2 x.text, w.other.map fun x => word2 x.text]

theorem optText_two {α : Type} {f : α → PyStr} (h : ∀ a, f a = [(word2 (f a)).1, (word2 (f a)).2])
    (o : Option α) (os : List (Option Word2)) :
    picksText ((o.map fun x => word2 (f x)) :: os) = optText f o ++ picksText os := by
  cases o with
  | none => rfl
  | some a =>
    show _ = f a ++ picksText os
    rw [h a]
    rfl

theorem RecentGroup.picks_text {w : RecentGroup} (h : w.WF) :
    py!"RE" ++ picksText (RecentGroup.picks w) = w.text := by
  unfold RecentGroup.picks RecentGroup.text
  rw [optText_two (by intro a; cases a <;> rfl), optText_two (by intro a; cases a <;> rfl),
    optText_two (by intro a; cases a <;> rfl)]
  obtain ⟨-, h2⟩ := h
  rcases ho : w.other with _ | x
  · simp [picksText, optText]
  · cases x <;>
      first | exact absurd ho h2 | (simp [picksText, optText, OtherWeather.text, word2])

theorem RecentGroup.picks_ok {w : RecentGroup} (h : w.WF) :
    Picks recentSlots (RecentGroup.picks w) := by
  obtain ⟨h1, h2⟩ := h
  refine ⟨?_, ?_, ?_, ?_, trivial⟩
  · rcases w.descriptor with _ | x
    · simp
    · rintro _ ⟨⟩
      cases x <;> decide
  · rcases w.precipitation with _ | x
    · simp
    · rintro _ ⟨⟩
      cases x <;> decide
  · rcases ho : w.obscuration with _ | x
    · simp
    · rintro _ ⟨⟩
      cases x <;> first | decide | exact absurd ho h1
  · rcases ho : w.other with _ | x
    · simp
    · rintro _ ⟨⟩
      cases x <;> first | decide | exact absurd ho h2

theorem slot_inv {α : Type} {f : α → PyStr} {ws : List Word2} (P : α → Prop)
    (h : ∀ w ∈ ws, ∃ a, P a ∧ w = word2 (f a)) {o : Option Word2}
    (ho : ∀ w, o = some w → w ∈ ws) :
    ∃ x : Option α, (∀ a, x = some a → P a) ∧ o = x.map fun a => word2 (f a) := by
  cases o with
  | none => exact ⟨none, by simp, rfl⟩
  | some w =>
    obtain ⟨a, h1, rfl⟩ := h w (ho w rfl)
    exact ⟨some a, by rintro _ ⟨⟩; exact h1, rfl⟩

theorem recent_picks_inv {os : List (Option Word2)} (h : Picks recentSlots os) :
    ∃ w : RecentGroup, w.WF ∧ os = RecentGroup.picks w := by
  match os, h with
  | [o1, o2, o3, o4], ⟨h1, h2, h3, h4, _⟩ =>
    obtain ⟨x1, -, rfl⟩ := slot_inv (f := Descriptor.text) (fun _ => True) (by
      intro w hw
      simp only [WordSlot.words, List.mem_cons, List.not_mem_nil, or_false] at hw
      rcases hw with rfl | rfl | rfl | rfl | rfl | rfl | rfl | rfl
      · exact ⟨.MI, trivial, rfl⟩
      · exact ⟨.PR, trivial, rfl⟩
      · exact ⟨.BC, trivial, rfl⟩
      · exact ⟨.DR, trivial, rfl⟩
      · exact ⟨.BL, trivial, rfl⟩
      · exact ⟨.SH, trivial, rfl⟩
      · exact ⟨.TS, trivial, rfl⟩
      · exact ⟨.FZ, trivial, rfl⟩) h1
    obtain ⟨x2, -, rfl⟩ := slot_inv (f := Precipitation.text) (fun _ => True) (by
      intro w hw
      simp only [WordSlot.words, List.mem_cons, List.not_mem_nil, or_false] at hw
      rcases hw with rfl | rfl | rfl | rfl | rfl | rfl | rfl | rfl | rfl
      · exact ⟨.DZ, trivial, rfl⟩
      · exact ⟨.RA, trivial, rfl⟩
      · exact ⟨.SN, trivial, rfl⟩
      · exact ⟨.SG, trivial, rfl⟩
      · exact ⟨.IC, trivial, rfl⟩
      · exact ⟨.PL, trivial, rfl⟩
      · exact ⟨.GR, trivial, rfl⟩
      · exact ⟨.GS, trivial, rfl⟩
      · exact ⟨.UP, trivial, rfl⟩) h2
    obtain ⟨x3, g3, rfl⟩ := slot_inv (f := Obscuration.text) (fun x => x ≠ .FU) (by
      intro w hw
      simp only [WordSlot.words, List.mem_cons, List.not_mem_nil, or_false] at hw
      rcases hw with rfl | rfl | rfl | rfl | rfl | rfl | rfl
      · exact ⟨.BR, by simp, rfl⟩
      · exact ⟨.FG, by simp, rfl⟩
      · exact ⟨.VA, by simp, rfl⟩
      · exact ⟨.DU, by simp, rfl⟩
      · exact ⟨.SA, by simp, rfl⟩
      · exact ⟨.HZ, by simp, rfl⟩
      · exact ⟨.PY, by simp, rfl⟩) h3
    obtain ⟨x4, g4, rfl⟩ := slot_inv (f := OtherWeather.text) (fun x => x ≠ .NSW) (by
      intro w hw
      simp only [WordSlot.words, List.mem_cons, List.not_mem_nil, or_false] at hw
      rcases hw with rfl | rfl | rfl | rfl | rfl
      · exact ⟨.PO, by simp, rfl⟩
      · exact ⟨.SQ, by simp, rfl⟩
      · exact ⟨.FC, by simp, rfl⟩
      · exact ⟨.SS, by simp, rfl⟩
      · exact ⟨.DS, by simp, rfl⟩) h4
    exact ⟨⟨x1, x2, x3, x4⟩, ⟨fun e => g3 _ e rfl, fun e => g4 _ e rfl⟩, rfl⟩

/-- The captures of four optional words. -/
theorem recent_groups (o1 o2 o3 o4 : Option Word2) (m : Match)
    (hs : m.string = py!"RE" ++ picksText [o1, o2, o3, o4])
    (hc : m.caps = picksCaps recentSlots [o1, o2, o3, o4] 2 []) :
    m.group .desc = o1.map Word2.text ∧ m.group .prec = o2.map Word2.text ∧
      m.group .obsc = o3.map Word2.text ∧ m.group .other = o4.map Word2.text := by
  unfold Match.group
  rw [hs, hc]
  rcases o1 with _ | ⟨a1, b1⟩ <;> rcases o2 with _ | ⟨a2, b2⟩ <;> rcases o3 with _ | ⟨a3, b3⟩ <;>
    rcases o4 with _ | ⟨a4, b4⟩ <;> exact ⟨rfl, rfl, rfl, rfl⟩

theorem recent_reads :
    Spec.Reads recentGrammar MetarRegExp.RECENT_WEATHER (fun m => .ok (RecentWeather.new m)) := by
  constructor
  · intro w hw
    have hm := recent_match (RecentGroup.picks_ok hw)
    rw [RecentGroup.picks_text hw] at hm
    obtain ⟨g1, g2, g3, g4⟩ := recent_groups _ _ _ _
      ⟨w.text, w.text.length, picksCaps recentSlots (RecentGroup.picks w) 2 []⟩
      (RecentGroup.picks_text hw).symm rfl
    refine ⟨_, _, hm, rfl, ?_⟩
    refine ⟨?_, ?_, ?_, ?_, ?_⟩
    · simp only [RecentWeather.new, groupCode, shown_eq]
    · simp only [RecentWeather.new, g1]
      rcases w.descriptor with _ | x
      · rfl
      · cases x <;> rfl
    · simp only [RecentWeather.new, g2]
      rcases w.precipitation with _ | x
      · rfl
      · cases x <;> rfl
    · simp only [RecentWeather.new, g3]
      rcases w.obscuration with _ | x
      · rfl
      · cases x <;> rfl
    · simp only [RecentWeather.new, g4]
      obtain ⟨-, hw⟩ := hw
      rcases ho : w.other with _ | x
      · rfl
      · cases x <;> first | rfl | exact absurd ho hw
  · intro s m hm hn
    obtain ⟨os, h1, rfl⟩ := recent_only hm hn
    obtain ⟨w, hw, rfl⟩ := recent_picks_inv h1
    exact ⟨w, hw, RecentGroup.picks_text hw⟩

end Verif
