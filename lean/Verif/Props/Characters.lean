import Verif.Lemmas.MadeTexts
import Verif.Lemmas.StationText
import Verif.Props.Stations
import Verif.Props.Json
import Verif.Props.Lines

/-
C115: the characters of the texts of reports.
-/

namespace Verif.Props
open Verif Verif.Spec

/-- C115: every character of `str(metar)` is ASCII, the degree sign, a digit of the report's text or one of
the tables of stations and countries. -/
theorem C115_metar (db : Database) (clock : Clock) (code : PyStr) (a : Args) (r : Metar)
    (h : Metar.new db clock code a = .ok r) :
    ∀ c ∈ r.str, c < 128 ∨ c = 176 ∨ (c ∈ code ∧ isDigit c = true) ∨ InTables db c :=
  shown_metar (P := fun c => c < 128 ∨ c = 176 ∨ (c ∈ code ∧ isDigit c = true) ∨ InTables db c) (fun _ h => .inl h)
    (.inr (.inl rfl)) (fun _ h => .inr (.inr (.inr h))) (fun _ h1 h2 => .inr (.inr (.inl ⟨h1, h2⟩))) h

/-- A digit outside ASCII (U+0660) in the name of a runway, and the degree sign, reach the text; a letter
outside ASCII, in the remark, does not. -/
example : (metarOk sampleClock (py!"METAR SBGR 071200Z 27015KT WS R" ++ [1632, 57] ++ py!" RMK " ++ [233])).map Metar.str =
    some (join py!"\n" [py!"Meteorological Aerodrome Report (METAR)", noStation, py!"2024-06-07 12:00:00",
      py!"W (270.0°) 15.0 kt", [1632, 57]]) := by
  decide +kernel

/-- C115: every character of `str(taf)` is ASCII, the degree sign or one of the tables, whatever the text of
the report is. -/
theorem C115_taf (db : Database) (clock : Clock) (code : PyStr) (a : Args) (r : Taf)
    (h : Taf.new db clock code a = .ok r) : ∀ c ∈ r.str, c < 128 ∨ c = 176 ∨ InTables db c :=
  shown_taf (P := fun c => c < 128 ∨ c = 176 ∨ InTables db c) (fun _ h => .inl h) (.inr (.inl rfl))
    (fun _ h => .inr (.inr h)) h

/-- The digits of the hour are read but not shown. -/
example : (tafOk sampleClock (py!"TAF SBGR 071000Z 0712/0818 27015KT TX25/071" ++ [1640] ++ py!"Z")).map Taf.str =
    some (join py!"\n" [py!"Terminal Aerodrome Forecast (TAF)", noStation, py!"2024-06-07 10:00:00",
      py!"from 2024-06-07 12:00:00 until 2024-06-08 18:00:00", py!"W (270.0°) 15.0 kt",
      py!"25.0°C at 2024-06-07 18:00:00"]) := by
  decide +kernel

/-- C115: with the tables of the library the only characters outside ASCII are the degree sign, digits of the
report's text, and the letters Å, ç, é and ô of the names of countries. -/
theorem C115_library_metar (clock : Clock) (code : PyStr) (a : Args) (r : Metar)
    (h : Metar.new libraryDb clock code a = .ok r) :
    ∀ c ∈ r.str, c < 128 ∨ c ∈ py!"°Åçéô" ∨ (c ∈ code ∧ isDigit c = true) := by
  intro c hc
  rcases C115_metar libraryDb clock code a r h c hc with h | rfl | h | h
  · exact .inl h
  · exact .inr (.inl (by decide))
  · exact .inr (.inr h)
  · exact (library_letters h).imp id fun h => .inl (List.mem_cons_of_mem _ h)

/-- C115: a TAF with the tables of the library. -/
theorem C115_library_taf (clock : Clock) (code : PyStr) (a : Args) (r : Taf)
    (h : Taf.new libraryDb clock code a = .ok r) : ∀ c ∈ r.str, c < 128 ∨ c ∈ py!"°Åçéô" := by
  intro c hc
  rcases C115_taf libraryDb clock code a r h c hc with h | rfl | h
  · exact .inl h
  · exact .inr (by decide)
  · exact (library_letters h).imp id fun h => List.mem_cons_of_mem _ h

/-- C71: in the dictionary of a METAR with the tables of the library. -/
theorem C71_library_dict (clock : Clock) (code : PyStr) (a : Args) (r : Metar) (d : PyVal)
    (h : Metar.new libraryDb clock code a = .ok r) (hd : r.dict libraryDb = .ok d) :
    Made (fun c => c < 128 ∨ c ∈ py!"Åçéô" ∨ c ∈ code) d :=
  made_metar (fun _ h => .inl h) (fun _ h => (library_letters h).imp id .inl) (fun _ h => .inr (.inr h)) h hd

/-- C71: in the dictionary of a TAF with the tables of the library. -/
theorem C71_library_taf_dict (clock : Clock) (code : PyStr) (a : Args) (r : Taf) (d : PyVal)
    (h : Taf.new libraryDb clock code a = .ok r) (hd : r.dict libraryDb = .ok d) :
    Made (fun c => c < 128 ∨ c ∈ py!"Åçéô" ∨ c ∈ code) d :=
  made_taf (fun _ h => .inl h) (fun _ h => (library_letters h).imp id .inl) (fun _ h => .inr (.inr h)) h hd

/-- The letters are there: the names of four countries. -/
example : ([py!"AX", py!"CW", py!"BL", py!"CI"].map fun k =>
    (dget libraryDb.countries k).map fun s => s.filter fun c => 128 ≤ c) =
    [some [197], some [231], some [233], some [244]] := by
  decide +kernel

/-- C115: every character of the text of a change period of a METAR is ASCII or the degree sign. -/
theorem C115_trend (text : PyStr) (time : DT) (p : ChangePeriod) (h : ChangePeriod.new text time = .ok p) :
    ∀ c ∈ p.str, c < 128 ∨ c = 176 :=
  shown_trend (P := fun c => c < 128 ∨ c = 176) (fun _ h => .inl h) (.inr rfl) h

example : ((ChangePeriod.new (py!"TEMPO 1801" ++ [1632] ++ py!"KT " ++ [233]) ⟨2024, 6, 7, 12, 0⟩).toOption.map
    ChangePeriod.str) = some (join py!"\n" [py!"temporary from 2024-06-07 12:00:00 until 2024-06-07 14:00:00",
      py!"S (180.0°) 10.0 kt"]) := by
  decide +kernel

/-- C115: the text of a change of a TAF is ASCII. -/
theorem C115_change (text : PyStr) (v : Valid) (x : ChangeForecasted) (h : ChangeForecasted.new text v = .ok x) :
    ∀ c ∈ x.str.1, c < 128 := by
  have := text_translation (shown_change (P := (· < 128)) (fun _ h => h) h)
  exact text_append (P := (· < 128)) text_nil (text_append this (Ascii.lit (fun _ h => h) rfl))

example : ((ChangeForecasted.new (py!"BECMG 0800/080" ++ [1634] ++ py!" OVC010") ⟨none, Time.ofDT ⟨2024, 6, 7, 12, 0⟩,
    Time.ofDT ⟨2024, 6, 8, 18, 0⟩⟩).toOption.map fun x => x.str.1) =
    some py!"becoming from 2024-06-08 00:00:00 until 2024-06-08 02:00:00\n" := by
  decide +kernel

end Verif.Props
