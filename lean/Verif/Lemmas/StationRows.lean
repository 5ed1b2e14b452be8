import Verif.Lemmas.Stations

/-
The checks of the tables, made by the kernel.
-/

namespace Verif

theorem rows_ok : stationBlocks.all (fun b => b.all rowOk) = true := by decide +kernel

theorem countries_ok : countryOk py!"US" = true ∧ countriesOk py!"US" libraryDb.stations = true := by decide +kernel

end Verif
