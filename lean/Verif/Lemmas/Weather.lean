import Verif.Model.MetarGroups
import Verif.Lemmas.WeatherForms
import Verif.Lemmas.Clouds
import Verif.Lemmas.Read
import Verif.Spec.Weather

/-
Decoding of weather groups.
-/

namespace Verif
open Spec

/-- The capture of a phenomenon. -/
def phenCap : Phenomenon → Cap
  | .prec _ => .prec
  | .obsc _ => .obsc
  | .other _ => .other
  | .missing => .other

theorem intensity_mem (i : Intensity) : i.text ∈ intensityWords := by cases i <;> decide
theorem descriptor_mem (d : Descriptor) : d.text ∈ descriptorWords := by cases d <;> decide
theorem prec_mem (p : Precipitation) : p.text ∈ precWords := by cases p <;> decide

theorem intensity_inv {t : PyStr} (h : t ∈ intensityWords) : ∃ i : Intensity, t = i.text := by
  simp only [intensityWords, List.mem_cons, List.not_mem_nil, or_false] at h
  rcases h with rfl | rfl | rfl | rfl | rfl
  · exact ⟨.lightVicinity, rfl⟩
  · exact ⟨.heavyVicinity, rfl⟩
  · exact ⟨.light, rfl⟩
  · exact ⟨.heavy, rfl⟩
  · exact ⟨.vicinity, rfl⟩

theorem descriptor_inv {t : PyStr} (h : t ∈ descriptorWords) : ∃ d : Descriptor, t = d.text := by
  simp only [descriptorWords, List.mem_cons, List.not_mem_nil, or_false] at h
  rcases h with rfl | rfl | rfl | rfl | rfl | rfl | rfl | rfl
  · exact ⟨.MI, rfl⟩
  · exact ⟨.PR, rfl⟩
  · exact ⟨.BC, rfl⟩
  · exact ⟨.DR, rfl⟩
  · exact ⟨.BL, rfl⟩
  · exact ⟨.SH, rfl⟩
  · exact ⟨.TS, rfl⟩
  · exact ⟨.FZ, rfl⟩

theorem prec_inv {t : PyStr} (h : t ∈ precWords) : ∃ d : Precipitation, t = d.text := by
  simp only [precWords, List.mem_cons, List.not_mem_nil, or_false] at h
  rcases h with rfl | rfl | rfl | rfl | rfl | rfl | rfl | rfl | rfl
  · exact ⟨.DZ, rfl⟩
  · exact ⟨.RA, rfl⟩
  · exact ⟨.SN, rfl⟩
  · exact ⟨.SG, rfl⟩
  · exact ⟨.IC, rfl⟩
  · exact ⟨.PL, rfl⟩
  · exact ⟨.GR, rfl⟩
  · exact ⟨.GS, rfl⟩
  · exact ⟨.UP, rfl⟩

theorem obsc_inv {t : PyStr} (h : t ∈ obscWords) : ∃ d : Obscuration, t = d.text := by
  simp only [obscWords, List.mem_cons, List.not_mem_nil, or_false] at h
  rcases h with rfl | rfl | rfl | rfl | rfl | rfl | rfl | rfl
  · exact ⟨.BR, rfl⟩
  · exact ⟨.FG, rfl⟩
  · exact ⟨.FU, rfl⟩
  · exact ⟨.VA, rfl⟩
  · exact ⟨.DU, rfl⟩
  · exact ⟨.SA, rfl⟩
  · exact ⟨.HZ, rfl⟩
  · exact ⟨.PY, rfl⟩

theorem other_inv {t : PyStr} (h : t ∈ otherWords) :
    (∃ d : OtherWeather, t = d.text) ∨ t = py!"/" := by
  simp only [otherWords, List.mem_cons, List.not_mem_nil, or_false] at h
  rcases h with rfl | rfl | rfl | rfl | rfl | rfl | rfl
  · exact .inl ⟨.PO, rfl⟩
  · exact .inl ⟨.SQ, rfl⟩
  · exact .inl ⟨.FC, rfl⟩
  · exact .inl ⟨.SS, rfl⟩
  · exact .inl ⟨.DS, rfl⟩
  · exact .inl ⟨.NSW, rfl⟩
  · exact .inr rfl

/-- The capture of an optional part. -/
def optCap {α : Type} (c : Cap) (o : Option α) : Option Cap := o.map fun _ => c

theorem opt_slot {α : Type} {ws : List PyStr} {c : Cap} {f : α → PyStr} (h : ∀ a, f a ∈ ws)
    (o : Option α) : (Slot.opt ws c).Has (optText f o) (optCap c o) := by
  rw [Slot.opt_has]
  cases o with
  | none => exact .inr ⟨rfl, rfl⟩
  | some a => exact .inl ⟨h a, rfl⟩

theorem opt_slot_inv {α : Type} {ws : List PyStr} {c : Cap} {f : α → PyStr}
    (h : ∀ t ∈ ws, ∃ a, t = f a) {t : PyStr} {o : Option Cap} (ht : (Slot.opt ws c).Has t o) :
    ∃ x : Option α, t = optText f x ∧ o = optCap c x := by
  rw [Slot.opt_has] at ht
  rcases ht with ⟨h1, rfl⟩ | ⟨rfl, rfl⟩
  · obtain ⟨a, rfl⟩ := h t h1
    exact ⟨some a, rfl, rfl⟩
  · exact ⟨none, rfl, rfl⟩

theorem phen_slot (o : Option Phenomenon) :
    phenSlot.Has (optText Phenomenon.text o) (o.map phenCap) := by
  cases o with
  | none => exact ⟨([], none), by simp [phenSlot], rfl, rfl⟩
  | some p =>
    refine ⟨(litShape p.text, some (phenCap p)), ?_, hasShape_lit _, rfl⟩
    unfold phenSlot
    simp only [List.mem_append, List.mem_map]
    cases p with
    | prec q => exact .inl (.inl (.inl ⟨_, prec_mem q, rfl⟩))
    | obsc q => exact .inl (.inl (.inr ⟨q.text, by cases q <;> decide, rfl⟩))
    | other q => exact .inl (.inr ⟨q.text, by cases q <;> decide, rfl⟩)
    | missing => exact .inl (.inr ⟨py!"/", by decide, rfl⟩)

theorem phen_slot_inv {t : PyStr} {o : Option Cap} (h : phenSlot.Has t o) :
    ∃ p : Option Phenomenon, t = optText Phenomenon.text p := by
  obtain ⟨a, ha, hs, -⟩ := h
  simp only [phenSlot, List.mem_append, List.mem_map, List.mem_singleton] at ha
  rcases ha with ((⟨w, hw, rfl⟩ | ⟨w, hw, rfl⟩) | ⟨w, hw, rfl⟩) | rfl
  · obtain ⟨q, rfl⟩ := prec_inv hw
    exact ⟨some (.prec q), hasShape_lit_iff.1 hs⟩
  · obtain ⟨q, rfl⟩ := obsc_inv hw
    exact ⟨some (.obsc q), hasShape_lit_iff.1 hs⟩
  · rcases other_inv hw with ⟨q, rfl⟩ | rfl
    · exact ⟨some (.other q), hasShape_lit_iff.1 hs⟩
    · exact ⟨some .missing, hasShape_lit_iff.1 hs⟩
  · exact ⟨none, hs⟩

theorem intensity_get (o : Option Intensity) :
    dgetO intensityTable (if optCap .int o = some .int then some (optText Intensity.text o) else none) =
      o.map Intensity.means := by
  cases o with
  | none => rfl
  | some i => cases i <;> rfl

theorem descriptor_get (o : Option Descriptor) :
    dgetO descriptionTable
      (if optCap .desc o = some .desc then some (optText Descriptor.text o) else none) =
      o.map Descriptor.means := by
  cases o with
  | none => rfl
  | some i => cases i <;> rfl

theorem weather_reads :
    Spec.Reads weatherGrammar MetarRegExp.WEATHER (fun m => .ok (Weather.new m)) := by
  constructor
  · intro w _
    have hc : Chosen weatherSlots
        [optText Intensity.text w.intensity, optText Descriptor.text w.descriptor,
          optText Phenomenon.text w.phenomenon]
        [optCap .int w.intensity, optCap .desc w.descriptor, w.phenomenon.map phenCap] :=
      .cons (opt_slot intensity_mem _) (.cons (opt_slot descriptor_mem _)
        (.cons (phen_slot _) .nil))
    obtain ⟨m, h1, h2, ⟨hi, hd, hp, -⟩, -⟩ :=
      RE.alt_match weather_table (p := (weatherSlots, [])) (by simp) hc
    have e : w.text = List.flatten [optText Intensity.text w.intensity,
        optText Descriptor.text w.descriptor, optText Phenomenon.text w.phenomenon] := by
      simp [WeatherGroup.text]
    refine ⟨m, _, (show MetarRegExp.WEATHER.match w.text = _ by rw [e]; exact h1), rfl, ?_⟩
    refine ⟨?_, ?_, ?_, ?_, ?_, ?_⟩
    · simp only [Weather.new, h2, ← e]
      simp only [groupCode, shown_eq]
    · simp only [Weather.new]
      rw [hi .int (by simp [Slot.opt]), intensity_get]
    · simp only [Weather.new]
      rw [hd .desc (by simp [Slot.opt]), descriptor_get]
    all_goals
      simp only [Weather.new]
    · rw [hp .prec (by simp [phenSlot])]
      rcases w.phenomenon with _ | (p | p | p | _) <;> first | rfl | (cases p <;> rfl)
    · rw [hp .obsc (by simp [phenSlot])]
      rcases w.phenomenon with _ | (p | p | p | _) <;> first | rfl | (cases p <;> rfl)
    · rw [hp .other (by simp [phenSlot])]
      rcases w.phenomenon with _ | (p | p | p | _) <;> first | rfl | (cases p <;> rfl)
  · intro s m hm hn
    obtain ⟨p, hp, ts, os, hc, rfl⟩ := RE.alt_only weather_table hm hn
    simp only [List.mem_singleton] at hp
    subst hp
    obtain ⟨t1, _, o1, _, rfl, rfl, h1, hc⟩ := hc.cons_inv
    obtain ⟨t2, _, o2, _, rfl, rfl, h2, hc⟩ := hc.cons_inv
    obtain ⟨t3, _, o3, _, rfl, rfl, h3, hc⟩ := hc.cons_inv
    obtain ⟨rfl, rfl⟩ := hc.nil_inv
    obtain ⟨i, rfl, -⟩ := opt_slot_inv (fun t ht => intensity_inv ht) h1
    obtain ⟨d, rfl, -⟩ := opt_slot_inv (fun t ht => descriptor_inv ht) h2
    obtain ⟨q, rfl⟩ := phen_slot_inv h3
    exact ⟨⟨i, d, q⟩, trivial, by simp [weatherGrammar, WeatherGroup.text]⟩

end Verif
