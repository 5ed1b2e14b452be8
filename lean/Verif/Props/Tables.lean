import Verif.Lemmas.Tables
import Verif.Props.Exceptions

/-
C114: what of a report depends on the tables of stations and countries.
-/

namespace Verif.Props
open Verif.Spec

/-! ### C114: the tables of stations and countries only describe the station -/

/-- C114. With other tables of stations and countries, the same METAR text raises the same exceptions, and
otherwise gives a report that differs at most in the row of the station and in its description in the text;
the code of the station is the same. -/
theorem C114_metar (db db' : Database) (clock : Clock) (code : PyStr) (a : Args) :
    (∀ e, Metar.new db clock code a = .error e ↔ Metar.new db' clock code a = .error e) ∧
    ∀ r, Metar.new db clock code a = .ok r →
      ∃ r', Metar.new db' clock code a = .ok r' ∧ MetarElsewhere db db' r r' := by
  have := Metar.new_both db db' clock code a
  revert this
  generalize Metar.new db clock code a = x
  generalize Metar.new db' clock code a = y
  intro h
  cases h with
  | error e => exact ⟨fun _ => Iff.rfl, fun r h => by cases h⟩
  | ok h => exact ⟨fun _ => ⟨(nomatch ·), (nomatch ·)⟩, fun r hr => by cases hr; exact ⟨_, rfl, h⟩⟩

/-- C114. The same of TAFs. -/
theorem C114_taf (db db' : Database) (clock : Clock) (code : PyStr) (a : Args) :
    (∀ e, Taf.new db clock code a = .error e ↔ Taf.new db' clock code a = .error e) ∧
    ∀ r, Taf.new db clock code a = .ok r →
      ∃ r', Taf.new db' clock code a = .ok r' ∧ TafElsewhere db db' r r' := by
  have := Taf.new_both db db' clock code a
  revert this
  generalize Taf.new db clock code a = x
  generalize Taf.new db' clock code a = y
  intro h
  cases h with
  | error e => exact ⟨fun _ => Iff.rfl, fun r h => by cases h⟩
  | ok h => exact ⟨fun _ => ⟨(nomatch ·), (nomatch ·)⟩, fun r hr => by cases hr; exact ⟨_, rfl, h⟩⟩

/-- C114. The dictionaries of the two reports have the same keys, and the same values but under `station`. -/
theorem C114_dict (db db' : Database) (clock : Clock) (code : PyStr) (a : Args) :
    (∀ r r', Metar.new db clock code a = .ok r → Metar.new db' clock code a = .ok r' →
      Both DictElsewhere (r.dict db) (r'.dict db')) ∧
    ∀ r r', Taf.new db clock code a = .ok r → Taf.new db' clock code a = .ok r' →
      Both DictElsewhere (r.dict db) (r'.dict db') := by
  refine ⟨fun r r' h h' => ?_, fun r r' h h' => ?_⟩
  · obtain ⟨x, h1, h2⟩ := (C114_metar db db' clock code a).2 r h
    cases h1.symm.trans h'
    exact Metar.dict_both h2
  · obtain ⟨x, h1, h2⟩ := (C114_taf db db' clock code a).2 r h
    cases h1.symm.trans h'
    exact Taf.dict_both h2

/-- C114. Tables with the same first row for every ICAO code and the same name for every country give the
same reports: later rows with a code that was already there, and the order of the rows, play no role. -/
theorem C114_rows (db db' : Database) (h : SameFirstRows db db') (clock : Clock) (code : PyStr) (a : Args) :
    Metar.new db clock code a = Metar.new db' clock code a ∧
    Taf.new db clock code a = Taf.new db' clock code a :=
  ⟨Metar.new_same h clock code a, Taf.new_same h clock code a⟩

def rowSKBO : StationRow :=
  ⟨py!"BOGOTA/ELDORADO", py!"SKBO", py!"BOG", py!"80222", py!"04.42N", py!"074.09W", py!"2548", py!"CO"⟩
def rowOther : StationRow := { rowSKBO with name := py!"ANOTHER", country := py!"AR" }

/-- A table with the station. -/
def oneRow : Database := ⟨[rowSKBO], [(py!"CO", py!"Colombia")]⟩

/-- The table with a second row of the same code. -/
def twoRows : Database := ⟨[rowSKBO, rowOther], [(py!"CO", py!"Colombia")]⟩

/-- The description of the station, and only it, is another one with the empty table. -/
example :
    ((Metar.new oneRow sampleClock py!"METAR SKBO 151200Z AUTO -RA" {}).toOption.map fun r =>
        (r.station.row, r.str)) =
      some (some rowSKBO, py!"Meteorological Aerodrome Report (METAR)\nName: BOGOTA/ELDORADO | Coordinates: 04.42N 074.09W | Elevation: 2548 m MSL | Country: Colombia\n2024-06-15 12:00:00\nautomatic report\nlight rain") ∧
    ((Metar.new sampleDb sampleClock py!"METAR SKBO 151200Z AUTO -RA" {}).toOption.map fun r =>
        (r.station.row, r.str)) =
      some (none, py!"Meteorological Aerodrome Report (METAR)\nName: None | Coordinates: None None | Elevation: None m MSL | Country: None\n2024-06-15 12:00:00\nautomatic report\nlight rain") := by
  decide +kernel

/-- An exception is raised with both. -/
example : errOf (Metar.new oneRow sampleClock py!"METAR SKBO 311200Z 23015KT" {}) = some .value ∧
    errOf (Metar.new sampleDb sampleClock py!"METAR SKBO 311200Z 23015KT" {}) = some .value := by
  decide +kernel

/-- The second row is never found. -/
example : SameFirstRows oneRow twoRows := by
  refine ⟨fun c => ?_, fun _ => rfl⟩
  by_cases h : c = py!"SKBO"
  · subst h; rfl
  · have h1 : ¬c = rowSKBO.icao := h
    have h2 : ¬c = rowOther.icao := h
    simp [oneRow, twoRows, h1, h2]

/-- With the two rows in the other order the station is another one: the hypothesis is needed. -/
example : ((Taf.new ⟨[rowOther, rowSKBO], []⟩ sampleClock py!"TAF SKBO 151130Z 1512/1618 23015KT" {}).toOption.map
      fun r => r.station.row) = some (some rowOther) ∧
    ((Taf.new twoRows sampleClock py!"TAF SKBO 151130Z 1512/1618 23015KT" {}).toOption.map
      fun r => r.station.row) = some (some rowSKBO) := by
  decide +kernel

end Verif.Props
