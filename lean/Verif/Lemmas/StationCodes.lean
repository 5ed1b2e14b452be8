import Verif.Lemmas.Stations

/-
No ICAO code and no SYNOP code is in the table twice.
-/

namespace Verif
open Spec

theorem icao_set : (Trie.insertAll 24 (keysOf (·.icao) key libraryDb.stations) .leaf).isSome = true := by
  decide +kernel

theorem synop_set : (Trie.insertAll 17 (keysOf (·.synop) digitsNum libraryDb.stations) .leaf).isSome = true := by
  decide +kernel

theorem icao_unique {x y : StationRow} (hx : x ∈ libraryDb.stations) (hy : y ∈ libraryDb.stations)
    (he : x.icao = y.icao) (hn : x.icao ≠ noCode) : x = y := by
  obtain ⟨t, ht⟩ := Option.isSome_iff_exists.1 icao_set
  exact keysOf_unique (Trie.nodup_of_insertAll _ _ _ _ ht).1 hx hy he hn

theorem synop_unique {x y : StationRow} (hx : x ∈ libraryDb.stations) (hy : y ∈ libraryDb.stations)
    (he : x.synop = y.synop) (hn : x.synop ≠ noCode) : x = y := by
  obtain ⟨t, ht⟩ := Option.isSome_iff_exists.1 synop_set
  exact keysOf_unique (f := (·.synop)) (Trie.nodup_of_insertAll _ _ _ _ ht).1 hx hy he hn

end Verif
