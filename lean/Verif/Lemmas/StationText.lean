import Verif.Model.Stations.All
import Verif.Spec.Json

/-
The characters of the tables of stations and countries, checked by the kernel.
-/

namespace Verif
open Spec

/-- All characters are ASCII; `Nat.blt` is fast in the kernel. -/
def plainText : PyStr → Bool
  | [] => true
  | c :: s => Nat.blt c 128 && plainText s

theorem plainText_sound {s : PyStr} (h : plainText s = true) : ∀ c ∈ s, c < 128 := by
  induction s with
  | nil => intro c hc; cases hc
  | cons d s ih =>
    simp only [plainText, Bool.and_eq_true] at h
    intro c hc
    rcases List.mem_cons.1 hc with rfl | hc
    · exact Nat.blt_eq ▸ h.1
    · exact ih h.2 c hc

def plainRow (r : StationRow) : Bool :=
  plainText r.name && plainText r.icao && plainText r.iata && plainText r.synop && plainText r.latitude &&
    plainText r.longitude && plainText r.elevation && plainText r.country

theorem plain_rows : stationBlocks.all (fun b => b.all plainRow) = true := by decide +kernel

/-- The letters of the names of countries that are not ASCII: Å, ç, é and ô. -/
def countryLetters : List Nat := [197, 231, 233, 244]

theorem country_letters : libraryDb.countries.all (fun x => x.2.all fun c => c < 128 || countryLetters.contains c) = true := by
  decide +kernel

theorem library_letters {c : Nat} (h : InTables libraryDb c) : c < 128 ∨ c ∈ countryLetters := by
  rcases h with ⟨r, hr, h⟩ | ⟨x, hx, h⟩
  · left
    obtain ⟨b, hb, hr⟩ := List.mem_flatten.1 (show r ∈ stationBlocks.flatten from hr)
    have := List.all_eq_true.1 (List.all_eq_true.1 plain_rows b hb) r hr
    simp only [plainRow, Bool.and_eq_true] at this
    obtain ⟨⟨⟨⟨⟨⟨⟨h1, h2⟩, h3⟩, h4⟩, h5⟩, h6⟩, h7⟩, h8⟩ := this
    rcases h with h | h | h | h | h | h | h | h
    · exact plainText_sound h1 c h
    · exact plainText_sound h2 c h
    · exact plainText_sound h3 c h
    · exact plainText_sound h4 c h
    · exact plainText_sound h5 c h
    · exact plainText_sound h6 c h
    · exact plainText_sound h7 c h
    · exact plainText_sound h8 c h
  · have := List.all_eq_true.1 (List.all_eq_true.1 country_letters x hx) c h
    simpa using this

end Verif
