import Verif.Model.Taf
import Verif.Model.Metar
import Verif.Spec.Parse

/-
Two reports read with different tables of stations and countries.
-/

namespace Verif.Spec

/-- The outcomes of two calls: the same exception, or two results that are related. -/
inductive Both {α β : Type} (R : α → β → Prop) : Except Exc α → Except Exc β → Prop
  | ok {a b} : R a b → Both R (.ok a) (.ok b)
  | error (e : Exc) : Both R (.error e) (.error e)

/-- Two texts that are equal, or the same but for the descriptions of two stations, each by its tables. -/
def SameButStation (db db' : Database) (s s' : Station) (x y : PyStr) : Prop :=
  s = s' ∧ x = y ∨ ∃ pre post, x = pre ++ s.str db ++ post ∧ y = pre ++ s'.str db' ++ post

/-- Two METARs that have all but the row of the station and its description in the text in common. -/
def MetarElsewhere (db db' : Database) (r r' : Metar) : Prop :=
  r' = { r with station := r'.station, core := { r.core with string := r'.core.string } } ∧
  r'.station.code = r.station.code ∧
  SameButStation db db' r.station r'.station r.core.string r'.core.string

/-- The same of two TAFs. -/
def TafElsewhere (db db' : Database) (r r' : Taf) : Prop :=
  r' = { r with station := r'.station, core := { r.core with string := r'.core.string } } ∧
  r'.station.code = r.station.code ∧
  SameButStation db db' r.station r'.station r.core.string r'.core.string

/-- Two tables that have the same first row for every ICAO code and the same name for every country. -/
def SameFirstRows (db db' : Database) : Prop :=
  (∀ c, db.stations.find? (fun r => c = r.icao) = db'.stations.find? fun r => c = r.icao) ∧
  ∀ c, dget db.countries c = dget db'.countries c

/-- Two dictionaries with the same keys in the same order, and the same values but under `station`. -/
def DictElsewhere (x y : PyVal) : Prop :=
  ∃ d d', x = .dict d ∧ y = .dict d' ∧
    Each (fun p q => p.1 = q.1 ∧ (p.1 ≠ py!"station" → p.2 = q.2)) d d'

end Verif.Spec
