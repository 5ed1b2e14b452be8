import Verif.Lemmas.Ambiguity
import Verif.Lemmas.Account

/-
Groups of a METAR among those of a TAF and the other way round, for C108.
-/

namespace Verif
open Spec

/-- The kinds of groups that only a TAF has. -/
def tafOnly : List TafKind := [.valid, .cancelled, .temperature]

def crossIn (ks : List MetarKind) (ks' : List TafKind) : Bool :=
  ks'.all fun k' => ks.all fun k => k'.pattern.apart k.pattern [] || k'.pattern.clashes k.pattern

theorem crossIn_sound {ks : List MetarKind} {ks' : List TafKind} (h : crossIn ks ks' = true) {k : MetarKind}
    {k' : TafKind} (hk : k ∈ ks) (hk' : k' ∈ ks') {w : PyStr} (hn : 10 ∉ w) (hw : Admits k.pattern w)
    (hw' : Admits k'.pattern w) : False := by
  obtain ⟨m, hm⟩ := hw
  obtain ⟨m', hm'⟩ := hw'
  have := List.all_eq_true.1 (List.all_eq_true.1 h k' hk') k hk
  rw [Bool.or_eq_true] at this
  rcases this with h | h
  · rcases RE.apart_sound h hm' hn with ⟨ks, hk, -⟩ | h
    · cases hk
    · rw [h] at hm; cases hm
  · exact RE.clashes_sound h hm' hm hn

set_option maxRecDepth 100000 in
theorem cross_tafOnly : crossIn metarRanked tafOnly = true := by decide +kernel

set_option maxRecDepth 100000 in
theorem cross_missing : crossIn [.time, .wind, .variation, .visibility] [.missing] = true := by decide +kernel

set_option maxRecDepth 100000 in
theorem cross_amendment : crossIn [.type, .visibility, .variation, .range, .temperatures, .pressure, .shear, .sea, .runway]
    [.amendment, .missing] = true := by decide +kernel

set_option maxRecDepth 100000 in
theorem cross_visibility : crossIn [.variation, .range, .shear, .sea, .runway] [.visibility] = true := by decide +kernel

/-- The shapes of a pattern whose first class is one of those. -/
def RE.opening (r : RE) (first : List CC) : List (List CC) :=
  (r.paths0.map fun x => pathCls x.1).filter fun ks => ks.head?.any fun k => first.contains k

theorem opening_head {r : RE} {first : List CC} {ks : List CC} (h : ks ∈ r.opening first) {w : PyStr}
    (hs : HasShape ks w) : ∃ k ∈ first, ∃ c t, w = c :: t ∧ k.mem c = true := by
  have := (List.mem_filter.1 h).2
  cases ks with
  | nil => simp at this
  | cons k ks =>
    obtain ⟨c, t, e, hc, -⟩ := hs
    exact ⟨k, by simpa using this, c, t, e, hc⟩

set_option maxRecDepth 100000 in
theorem temperatures_visibility : MetarRegExp.TEMPERATURES.apart TafRegExp.VISIBILITY
    (MetarRegExp.TEMPERATURES.opening [.one 77]) = true := by decide +kernel

set_option maxRecDepth 100000 in
theorem pressure_visibility : MetarRegExp.PRESSURE.apart TafRegExp.VISIBILITY
    (MetarRegExp.PRESSURE.opening [.digit]) = true := by decide +kernel

def crossRE (ps qs : List RE) : Bool :=
  ps.all fun p => qs.all fun q => p.apart q [] || p.clashes q

theorem crossRE_sound {ps qs : List RE} (h : crossRE ps qs = true) {p q : RE} (hp : p ∈ ps) (hq : q ∈ qs) {w : PyStr}
    (hn : 10 ∉ w) (hw : Admits p w) (hw' : Admits q w) : False := by
  obtain ⟨m, hm⟩ := hw
  obtain ⟨m', hm'⟩ := hw'
  have := List.all_eq_true.1 (List.all_eq_true.1 h p hp) q hq
  rw [Bool.or_eq_true] at this
  rcases this with h | h
  · rcases RE.apart_sound h hm hn with ⟨ks, hk, -⟩ | h
    · cases hk
    · rw [h] at hm'; cases hm'
  · exact RE.clashes_sound h hm hm' hn

set_option maxRecDepth 100000 in
theorem cross_trend : crossRE [MetarRegExp.CHANGE_INDICATOR, MetarRegExp.TREND_TIME_PERIOD]
    [TafRegExp.VALID, TafRegExp.CANCELLED, TafRegExp.TEMPERATURE] = true := by decide +kernel

set_option maxRecDepth 100000 in
theorem cross_change : crossRE [TafRegExp.CHANGE_INDICATOR]
    [MetarRegExp.WIND_VARIATION, MetarRegExp.RUNWAY_RANGE, MetarRegExp.TEMPERATURES, MetarRegExp.PRESSURE,
     MetarRegExp.WINDSHEAR, MetarRegExp.SEA_STATE, MetarRegExp.RUNWAY_STATE] = true := by decide +kernel

end Verif
