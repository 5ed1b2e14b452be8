import Verif.Props.Report
import Verif.Props.TafRoundTrip
import Verif.Lemmas.StationRows
import Verif.Lemmas.StationCodes

/-
C72: the tables of stations and of countries that come with the library.
-/

namespace Verif.Props
open Spec

/-! ### The rows -/

theorem row_ok {row : StationRow} (h : row ∈ libraryDb.stations) : rowOk row = true := by
  obtain ⟨b, hb, hr⟩ := List.mem_flatten.1 (show row ∈ stationBlocks.flatten from h)
  exact List.all_eq_true.1 (List.all_eq_true.1 rows_ok b hb) row hr

/-- C72. In every row of the table the ICAO code is missing or a code that reports can carry, the
IATA and SYNOP codes are missing or well formed, and the position and elevation are on Earth; except
for the longitude of Armstrong. -/
theorem C72_rows (row : StationRow) (h : row ∈ libraryDb.stations) :
    (row.icao = noCode ∨ StationCode row.icao ∧ ¬ py!"RMK" <+: row.icao) ∧
    (row.iata = noCode ∨ IataCode row.iata) ∧ (row.synop = noCode ∨ SynopCode row.synop) ∧
    Latitude row.latitude ∧ (row.icao ≠ py!"CYYW" → Longitude row.longitude) ∧ Elevation row.elevation := by
  have := row_ok h
  simp only [rowOk, Bool.and_eq_true, Bool.or_eq_true, Bool.not_eq_true'] at this
  obtain ⟨⟨⟨⟨⟨h1, h2⟩, h3⟩, h4⟩, h5⟩, h6⟩ := this
  refine ⟨h1.imp sameText_eq fun h => ⟨icao_of h.1, ?_⟩, h2.imp sameText_eq iata_of, h3.imp sameText_eq synop_of,
    latitude_of h4, fun hn => ?_, elevation_of h6⟩
  · rintro ⟨t, ht⟩
    apply sameText_false h.2
    rw [← ht]
    simp
  · exact longitude_of (h5.resolve_left fun e => hn (sameText_eq e))

/-- C72. No ICAO code and no SYNOP code belongs to two rows. -/
theorem C72_unique (x y : StationRow) (hx : x ∈ libraryDb.stations) (hy : y ∈ libraryDb.stations) :
    (x.icao = y.icao → x.icao ≠ noCode → x = y) ∧ (x.synop = y.synop → x.synop ≠ noCode → x = y) :=
  ⟨icao_unique hx hy, synop_unique hx hy⟩

theorem found {type : PyStr} {col : StationRow → PyStr} {row : StationRow} (h : row ∈ libraryDb.stations)
    (ht : type = py!"ICAO" ∧ col = StationRow.icao ∨ type = py!"IATA" ∧ col = StationRow.iata ∨
      type = py!"SYNOP" ∧ col = StationRow.synop)
    (hu : ∀ x ∈ libraryDb.stations, col x = col row → x = row) :
    ∃ s, Station.new libraryDb (some (col row)) type = .ok s ∧ s.row = some row := by
  obtain ⟨s, h1, -, h3⟩ := C54_lookup libraryDb (col row) type (by grind)
  refine ⟨s, h1, ?_⟩
  rcases h3 col ht with ⟨before, r, after, e, hc, -, hs⟩ | ⟨hn, -⟩
  · rw [hs, hu r (by rw [e]; simp) hc]
  · exact absurd rfl (hn row h)

/-- C72. Every station is found by its ICAO code and by its SYNOP code. -/
theorem C72_found (row : StationRow) (h : row ∈ libraryDb.stations) :
    (row.icao ≠ noCode → ∃ s, Station.new libraryDb (some row.icao) py!"ICAO" = .ok s ∧ s.row = some row) ∧
    (row.synop ≠ noCode → ∃ s, Station.new libraryDb (some row.synop) py!"SYNOP" = .ok s ∧ s.row = some row) :=
  ⟨fun hn => found h (.inl ⟨rfl, rfl⟩) fun _ hx he => icao_unique hx h he (he ▸ hn),
    fun hn => found h (.inr (.inr ⟨rfl, rfl⟩)) fun _ hx he => synop_unique hx h he (he ▸ hn)⟩

/-! ### Countries -/

theorem country_set : (Trie.insertAll 12 (countriesTable.map fun x => key x.1) .leaf).isSome = true := by
  decide +kernel

theorem country_unique {c n m : PyStr} (h1 : (c, n) ∈ countriesTable) (h2 : (c, m) ∈ countriesTable) : n = m := by
  obtain ⟨t, ht⟩ := Option.isSome_iff_exists.1 country_set
  have hn := (Trie.nodup_of_insertAll _ _ _ _ ht).1
  clear ht
  generalize countriesTable = l at *
  induction l with
  | nil => cases h1
  | cons x l ih =>
    obtain ⟨h3, h4⟩ := List.nodup_cons.1 (by simpa only [List.map_cons] using hn)
    have no : ∀ k, (x.1, k) ∉ l := fun k hk => h3 (List.mem_map.2 ⟨(x.1, k), hk, rfl⟩)
    rcases List.mem_cons.1 h1 with e1 | h1' <;> rcases List.mem_cons.1 h2 with e2 | h2'
    · rw [← e2] at e1; exact (Prod.mk.inj e1).2
    · exact absurd h2' (by rw [← e1] at no; exact no m)
    · exact absurd h1' (by rw [← e2] at no; exact no n)
    · exact ih h1' h2' h4

theorem lookup_mem {c : PyStr} {l : List (PyStr × PyStr)} :
    (∃ n, l.lookup c = some n ∧ (c, n) ∈ l) ∨ (l.lookup c = none ∧ ∀ n, (c, n) ∉ l) := by
  induction l with
  | nil => simp
  | cons x l ih =>
    rw [List.lookup_cons]
    by_cases h : c = x.1
    · subst h
      exact .inl ⟨x.2, by simp, by simp⟩
    · rw [show (c == x.1) = false by simpa using h]
      rcases ih with ⟨n, h1, h2⟩ | ⟨h1, h2⟩
      · exact .inl ⟨n, h1, by simp [h2]⟩
      · refine .inr ⟨h1, fun n hn => ?_⟩
        rcases List.mem_cons.1 hn with e | hn
        · exact h (by rw [← e])
        · exact h2 n hn

/-- C72. The country shown of a station is the one name that the table of countries has for the code
in its row. Only the codes CS, DN, TP and AN have none; stations with these show no country. -/
theorem C72_country (row : StationRow) (h : row ∈ libraryDb.stations) (s : Station) (hs : s.row = some row) :
    (row.country ∉ [py!"CS", py!"DN", py!"TP", py!"AN"] ∧
      ∃ name, s.country libraryDb = some name ∧ (row.country, name) ∈ libraryDb.countries ∧
        ∀ n, (row.country, n) ∈ libraryDb.countries → n = name) ∨
    (row.country ∈ [py!"CS", py!"DN", py!"TP", py!"AN"] ∧ s.country libraryDb = none) := by
  have hok := countriesOk_mem countries_ok.1 countries_ok.2 row h
  have e : s.country libraryDb = countriesTable.lookup row.country := by
    simp only [Station.country, hs, Option.map_some, dgetO, dget]
    rfl
  unfold countryOk at hok
  split at hok
  · next hl =>
    obtain ⟨c, hc, hc'⟩ := List.any_eq_true.1 hl
    refine .inr ⟨sameText_eq hc' ▸ hc, ?_⟩
    rcases lookup_mem (c := row.country) (l := countriesTable) with ⟨n, -, h2⟩ | ⟨h1, -⟩
    · have := List.all_eq_true.1 hok _ h2
      simp [sameText_self] at this
    · rw [e, h1]
  · next hl =>
    have hl' : row.country ∉ lostCountries := fun hm => hl (List.any_eq_true.2 ⟨_, hm, sameText_self _⟩)
    refine .inl ⟨hl', ?_⟩
    rcases lookup_mem (c := row.country) (l := countriesTable) with ⟨n, h1, h2⟩ | ⟨-, h2⟩
    · exact ⟨n, by rw [e, h1], h2, fun m hm => country_unique hm h2⟩
    · obtain ⟨x, hx, hx'⟩ := List.any_eq_true.1 hok
      exact absurd (by rw [← sameText_eq hx']; exact hx) (h2 x.2)

/-! ### Reports -/

/-- A row is in the table, and it is the only one with its ICAO code. -/
def OnlyRow (g : PyStr) (row : StationRow) : Prop :=
  row ∈ libraryDb.stations ∧ row.icao = g ∧ ∀ x ∈ libraryDb.stations, x.icao = g → x = row

theorem only_row {g : PyStr} {s : Station} (hg : g ≠ noCode) (h : StationOf libraryDb g s) :
    (∃ row, OnlyRow g row ∧ s.row = some row) ∨ ((∀ x ∈ libraryDb.stations, x.icao ≠ g) ∧ s.row = none) := by
  rcases h.2 with ⟨before, row, after, e, hc, -, hs⟩ | h
  · have hm : row ∈ libraryDb.stations := by rw [e]; simp
    exact .inl ⟨row, ⟨hm, hc, fun x hx he => icao_unique hx hm (he.trans hc.symm) (he ▸ hg)⟩, hs⟩
  · exact .inr h

theorem station_code {g : PyStr} {m : Match} (hm : MetarRegExp.STATION.match g = some m) (hn : 10 ∉ g) :
    g ≠ noCode := by
  rintro rfl
  revert hm
  rw [show MetarRegExp.STATION.match noCode = none by decide +kernel]
  exact nofun

/-- C72. A report read with the tables of the library has the station whose ICAO code is the word
taken for the station: there is one such row at most. A word that is no ICAO code of the table gives
a station without a row, and a report without a station word one without a code. Rows without an ICAO
code are never shown. -/
theorem C72_report (clock : Clock) (code : PyStr) (a : Args) (s : Station)
    (h : (∃ r, Metar.new libraryDb clock code a = .ok r ∧ r.station = s) ∨
      ∃ r, Taf.new libraryDb clock code a = .ok r ∧ r.station = s) :
    (s.code = none ∧ s.row = none) ∨
    ∃ g, s.code = some g ∧ ((∃ row, OnlyRow g row ∧ s.row = some row) ∨
      ((∀ x ∈ libraryDb.stations, x.icao ≠ g) ∧ s.row = none)) := by
  rcases h with ⟨r, h, rfl⟩ | ⟨r, h, rfl⟩
  · obtain ⟨time, -, -, hR, hn⟩ := Metar.new_decodes h ((decodes_iff ..).2 rfl)
    rcases hR.station with ⟨g, m, hg, hm, hx⟩ | ⟨hg, hx⟩
    · have hs := station_of hm (hn _ _ hg) hx
      exact .inr ⟨g, hs.1, only_row (station_code hm (hn _ _ hg)) hs⟩
    · exact .inl (by rw [hx]; exact ⟨rfl, rfl⟩)
  · obtain ⟨time, v, -, -, -, hR, hn⟩ := Taf.new_decodes h ((decodes_iff ..).2 rfl)
    rcases hR.station with ⟨g, m, hg, hm, hx⟩ | ⟨hg, hx⟩
    · have hs := station_of hm (hn _ _ hg) hx
      exact .inr ⟨g, hs.1, only_row (station_code hm (hn _ _ hg)) hs⟩
    · exact .inl (by rw [hx]; exact ⟨rfl, rfl⟩)

theorem said_row {row : StationRow} {s : Station} (hrow : row ∈ libraryDb.stations) (hn : row.icao ≠ noCode)
    (h : StationOf libraryDb row.icao s) : s.code = some row.icao ∧ s.row = some row := by
  refine ⟨h.1, ?_⟩
  rcases only_row hn h with ⟨x, hx, hs⟩ | ⟨hs, -⟩
  · rw [hs, icao_unique hrow hx.1 hx.2.1.symm hn]
  · exact absurd rfl (hs row hrow)

/-- C72. Every station of the table that has an ICAO code can report: the shortest METAR of it, at any
time, is parsed without exception, to that row. -/
theorem C72_metar (clock : Clock) (a : Args) (row : StationRow) (hrow : row ∈ libraryDb.stations)
    (hn : row.icao ≠ noCode) (y mo d ho mi : Nat) (hs : Sane clock)
    (hy : a.year.getD (clock 2).year = (y : Int)) (hmo : a.month.getD (clock 2).month = (mo : Int))
    (hy1 : 1000 ≤ y) (ht : IsTime ⟨y, mo, d, ho, mi⟩) :
    ∃ r, Metar.new libraryDb clock (py!"METAR " ++ row.icao ++ 32 :: timeText d ho mi) a = .ok r ∧
      r.station.code = some row.icao ∧ r.station.row = some row ∧ r.unparsed = [] := by
  obtain ⟨hc, hr⟩ := (C72_rows row hrow).1.resolve_left hn
  obtain ⟨r, h1, h2, -, h4⟩ := C50_round_trip libraryDb clock a
    { station := row.icao, day := d, hour := ho, minute := mi } none y mo hs hy hmo hy1
    (by constructor <;> simp [hc, hr]) ht (by simp)
  obtain ⟨e1, e2⟩ := said_row hrow hn h2.station
  refine ⟨r, ?_, e1, e2, h4⟩
  rw [← h1]
  congr 1
  simp [metarText, MetarRecord.words, join, MetarRecord.front, MetarRecord.early, MetarRecord.rest,
    MetarRecord.middle, MetarRecord.late]

/-- C72. The same of TAFs. -/
theorem C72_taf (clock : Clock) (a : Args) (row : StationRow) (hrow : row ∈ libraryDb.stations)
    (hn : row.icao ≠ noCode) (y mo d ho mi : Nat) (hs : Sane clock)
    (hy : a.year.getD (clock 1).year = (y : Int)) (hmo : a.month.getD (clock 1).month = (mo : Int))
    (hy1 : 1000 ≤ y) (hy2 : y < 9998) (ht : IsTime ⟨y, mo, d, ho, mi⟩) :
    ∃ r, Taf.new libraryDb clock (py!"TAF " ++ row.icao ++ 32 :: timeText d ho mi) a = .ok r ∧
      r.station.code = some row.icao ∧ r.station.row = some row ∧ r.unparsed = [] := by
  obtain ⟨hc, -⟩ := (C72_rows row hrow).1.resolve_left hn
  obtain ⟨r, h1, h2, h4⟩ := C51_round_trip libraryDb clock a
    { station := row.icao, day := d, hour := ho, minute := mi } y mo hs hy hmo hy1 hy2
    (by constructor <;> simp [hc, show Conditions.WF {} from by constructor <;> simp]) ht
  obtain ⟨e1, e2⟩ := said_row hrow hn h2.station
  refine ⟨r, ?_, e1, e2, h4⟩
  rw [← h1]
  congr 1
  simp [TafRecord.words, TafRecord.body, TafRecord.front, Conditions.words, Conditions.sky, join]

/-- C72. Every METAR record and every TAF record of a station of the table is read as a report of that
row. -/
theorem C72_records (clock : Clock) (a : Args) (row : StationRow) (hrow : row ∈ libraryDb.stations)
    (hn : row.icao ≠ noCode) (y mo : Nat) (hs : Sane clock) (hy1 : 1000 ≤ y) :
    (∀ (w : MetarRecord) (remark : Option (PyStr × List PyStr)), w.station = row.icao → w.WF →
      a.year.getD (clock 2).year = (y : Int) → a.month.getD (clock 2).month = (mo : Int) →
      IsTime ⟨y, mo, w.day, w.hour, w.minute⟩ → (∀ p ∈ remark, Part [py!"RMK"] metarWords p) →
      ∃ r, Metar.new libraryDb clock (join [32] (metarText w.words [] remark)) a = .ok r ∧
        r.station.row = some row) ∧
    (∀ w : TafRecord, w.station = row.icao → w.WF →
      a.year.getD (clock 1).year = (y : Int) → a.month.getD (clock 1).month = (mo : Int) → y < 9998 →
      IsTime ⟨y, mo, w.day, w.hour, w.minute⟩ →
      ∃ r, Taf.new libraryDb clock (join [32] w.words) a = .ok r ∧ r.station.row = some row) := by
  constructor
  · intro w remark e hw hy hmo ht hr
    obtain ⟨r, h1, h2, -⟩ := C50_round_trip libraryDb clock a w remark y mo hs hy hmo hy1 hw ht hr
    exact ⟨r, h1, (said_row hrow hn (e ▸ h2.station)).2⟩
  · intro w e hw hy hmo hy2 ht
    obtain ⟨r, h1, h2, -⟩ := C51_round_trip libraryDb clock a w y mo hs hy hmo hy1 hy2 hw ht
    exact ⟨r, h1, (said_row hrow hn (e ▸ h2.station)).2⟩

/-! ### Cases, and what does not hold -/

/-- Whether a row of the table agrees with a condition that the kernel evaluates. -/
theorem row_exists {p : StationRow → Bool} (h : libraryDb.stations.any p = true) :
    ∃ row ∈ libraryDb.stations, p row = true := List.any_eq_true.1 h

/-- Case: Bogota, found by its codes. -/
example : ∃ row ∈ libraryDb.stations, row.icao = py!"SKBO" ∧ row.country = py!"CO" ∧ row.icao ≠ noCode ∧
    row.synop ≠ noCode := by
  obtain ⟨row, h, h'⟩ := row_exists (p := fun r => sameText r.icao py!"SKBO" && sameText r.country py!"CO" &&
    sameText r.synop py!"80222") (by decide +kernel)
  simp only [Bool.and_eq_true] at h'
  obtain ⟨⟨h1, h2⟩, h3⟩ := h'
  exact ⟨row, h, sameText_eq h1, sameText_eq h2, by rw [sameText_eq h1]; decide, by rw [sameText_eq h3]; decide⟩

/-- Case: Adana, whose code ends in TAF. -/
example : ∃ r, Taf.new libraryDb sampleClock py!"TAF LTAF 151100Z" {} = .ok r ∧
    r.station.row.map (·.name) = some py!"ADANA/SAKIRPASA" := by
  obtain ⟨row, h, h'⟩ := row_exists (p := fun r => sameText r.icao py!"LTAF" && sameText r.name py!"ADANA/SAKIRPASA")
    (by decide +kernel)
  simp only [Bool.and_eq_true] at h'
  obtain ⟨r, h1, -, h3, -⟩ := C72_taf sampleClock {} row h (by rw [sameText_eq h'.1]; decide) 2024 6 15 11 0
    sane_sample.1 rfl rfl (by decide) (by decide) (by constructor <;> decide)
  rw [sameText_eq h'.1] at h1
  exact ⟨r, h1, by rw [h3, Option.map_some, sameText_eq h'.2]⟩

/-- C72 does not hold of the longitude of Armstrong, Ontario; which is moreover in China. -/
theorem C72_longitude_counterexample :
    ∃ row ∈ libraryDb.stations, row.icao = py!"CYYW" ∧ row.name = py!"ON ARMSTRONG (MARS)" ∧
      ¬ Longitude row.longitude ∧ ∀ s : Station, s.row = some row → s.country libraryDb = some py!"China" := by
  obtain ⟨row, h, h'⟩ := row_exists (p := fun r => sameText r.icao py!"CYYW" && sameText r.country py!"CN" &&
    sameText r.name py!"ON ARMSTRONG (MARS)" && sameText r.longitude py!".88.54W") (by decide +kernel)
  simp only [Bool.and_eq_true] at h'
  obtain ⟨⟨⟨h1, h2⟩, h3⟩, h4⟩ := h'
  refine ⟨row, h, sameText_eq h1, sameText_eq h3, ?_, fun s hs => ?_⟩
  · rw [sameText_eq h4]
    rintro ⟨d, m, c, -, e, -, -⟩
    have : (46 : Nat) ∈ padNat 3 d := by
      cases hp : padNat 3 d with
      | nil => exact absurd hp (padNat_ne _ _)
      | cons x t =>
        rw [hp, List.cons_append, List.cons_append, List.cons.injEq] at e
        simp [← e.1]
    exact absurd (padNat_ascii 3 d 46 this) (by decide)
  · rcases C72_country row h s hs with ⟨-, name, h5, h6, -⟩ | ⟨h5, -⟩
    · rw [h5]
      have hc : (countriesTable.any fun x => sameText x.1 py!"CN" && sameText x.2 py!"China") = true := by
        decide +kernel
      obtain ⟨x, hx, hx'⟩ := List.any_eq_true.1 hc
      simp only [Bool.and_eq_true] at hx'
      rw [sameText_eq h2] at h6
      have hx'' : (py!"CN", py!"China") ∈ countriesTable := by
        rw [← sameText_eq hx'.1, ← sameText_eq hx'.2]; exact hx
      rw [country_unique h6 hx'']
    · rw [sameText_eq h2] at h5
      exact absurd h5 (by decide)

theorem lookup_iata (db : Database) (c : PyStr) : ∃ s, Station.new db (some c) py!"IATA" = .ok s ∧
    s.row = db.stations.find? fun r => c = r.iata := ⟨_, rfl, rfl⟩

/-- C72 does not hold of IATA codes: Shanghai has the code PVG, which shows a station in Virginia. -/
theorem C72_iata_counterexample :
    (∃ row ∈ libraryDb.stations, row.iata = py!"PVG" ∧ row.name = py!"SHANGHAI/PUDONG") ∧
    ∃ s row, Station.new libraryDb (some py!"PVG") py!"IATA" = .ok s ∧ s.row = some row ∧
      row.name = py!"VA NORFOLK/HAMPTON" := by
  refine ⟨?_, ?_⟩
  · obtain ⟨row, h, h'⟩ := row_exists (p := fun r => sameText r.iata py!"PVG" && sameText r.name py!"SHANGHAI/PUDONG")
      (by decide +kernel)
    simp only [Bool.and_eq_true] at h'
    exact ⟨row, h, sameText_eq h'.1, sameText_eq h'.2⟩
  · have hf : (match libraryDb.stations.find? fun r => sameText py!"PVG" r.iata with
        | some row => sameText row.name py!"VA NORFOLK/HAMPTON"
        | none => false) = true := by decide +kernel
    have he : (fun r : StationRow => sameText py!"PVG" r.iata) = fun r => decide (py!"PVG" = r.iata) := by
      funext r
      by_cases h : py!"PVG" = r.iata
      · rw [← h]; decide
      · rw [Bool.eq_iff_iff]
        exact ⟨fun h' => absurd (sameText_eq h') h, fun h' => absurd (of_decide_eq_true h') h⟩
    rw [he] at hf
    split at hf
    · next row hr =>
      obtain ⟨s, h1, h2⟩ := lookup_iata libraryDb py!"PVG"
      exact ⟨s, row, h1, h2.trans hr, sameText_eq hf⟩
    · cases hf

/-- C72 does not hold of the country of Sarajevo: none is shown. -/
theorem C72_country_counterexample :
    ∃ row ∈ libraryDb.stations, row.icao = py!"LQSA" ∧ ∀ s : Station, s.row = some row → s.country libraryDb = none := by
  obtain ⟨row, h, h'⟩ := row_exists (p := fun r => sameText r.icao py!"LQSA" && sameText r.country py!"CS")
    (by decide +kernel)
  simp only [Bool.and_eq_true] at h'
  refine ⟨row, h, sameText_eq h'.1, fun s hs => ?_⟩
  rcases C72_country row h s hs with ⟨h5, -⟩ | ⟨-, h5⟩
  · exact absurd (by rw [sameText_eq h'.2]; decide) h5
  · exact h5

end Verif.Props
