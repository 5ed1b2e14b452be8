import Verif.Lemmas.ShownNum
import Verif.Props.Direction

/-
The text of the groups: what is shown follows from what the group says.
-/

namespace Verif

open Spec

/-! ### Compass -/

theorem cardinal_whole (n : Nat) (h : n ≤ 360) (b : Bool) :
    ∃ name, Direction.cardinal ⟨some (whole n), b⟩ = some name ∧ IsCardinal name n := by
  obtain ⟨name, h1, h2⟩ := Props.C18_cardinal (whole n) b (rnd_natCast n (by omega)) Rat.natCast_nonneg
    (by
      show (n : Rat) ≤ 360
      have := Rat.natCast_le_natCast.2 h
      exact this)
  exact ⟨name, h1, (h2 name).2 rfl⟩

theorem direction_str (n : Nat) : Direction.str ⟨some (whole n), false⟩ = wholeMeasure py!"°" n := by
  unfold Direction.str
  rw [if_neg (by simp)]
  exact numStrUnit_whole _ _

theorem points_phrase : ∀ name ∈ points, phrase name = true := by decide +kernel

theorem cardinal_mem {name : PyStr} {v : Rat} (h : IsCardinal name v) : name ∈ points := by
  obtain ⟨i, hi, _⟩ := h
  exact List.mem_of_getElem? hi

theorem compass {n : Nat} (h : n ≤ 360) (h0 : 0 < n) :
    ∃ name t, Compass n name t ∧ Direction.cardinal ⟨some (whole n), false⟩ = some name ∧
      t = py!"(" ++ Direction.str ⟨some (whole n), false⟩ ++ py!")" := by
  obtain ⟨name, h1, h2⟩ := cardinal_whole n h false
  refine ⟨name, _, ⟨h2, rfl⟩, h1, ?_⟩
  rw [direction_str, wholeMeasure, if_neg (by omega)]
  simp

/-! ### Wind -/

theorem knots_shown {mps : Bool} {n : Nat} {v : Option F64} (hn : n < 1000)
    (h : Knots mps (some n) v) : KnotsShown mps n (speedStr v) := by
  unfold Knots at h
  unfold KnotsShown
  cases mps with
  | false =>
    simp only [Bool.false_eq_true, if_false] at h ⊢
    rw [h]
    exact numStrUnit_whole _ _
  | true =>
    simp only [if_true] at h ⊢
    obtain ⟨x, rfl, hx⟩ := h
    refine numStrUnit_rel (by decide +kernel) hx ?_
    have hn' : (n : Rat) ≤ ((1000 : Nat) : Rat) := Rat.natCast_le_natCast.2 (by omega)
    have c : ((1000 : Nat) : Rat) = 1000 := rfl
    rw [c] at hn'
    grind

theorem knots_truthy {mps : Bool} {n : Nat} {v : Option F64} (h : Knots mps (some n) v) :
    truthyO v = decide (n ≠ 0) := by
  unfold Knots at h
  cases mps with
  | false =>
    simp only [Bool.false_eq_true, if_false] at h
    rw [h]
    exact truthy_whole n
  | true =>
    simp only [if_true] at h
    obtain ⟨x, rfl, h0, h1, h2⟩ := h
    simp only [truthyO, F64.truthy]
    have e : x = 0 ↔ n = 0 := by
      have hz : (n : Rat) = 0 ↔ n = 0 := Rat.natCast_eq_zero_iff
      rw [← hz]
      constructor <;> intro h <;> grind
    simp [e]

theorem knots_phrase {mps : Bool} {o : Option Nat} {v : Option F64} (h : Knots mps o v) :
    speedStr v = [] ∨ phrase (speedStr v) = true := by
  cases v with
  | none => exact Or.inl rfl
  | some x => exact Or.inr (numStrUnit_phrase x (by decide))

theorem digits_lt_1000 {ds : PyStr} (h : TwoOrThreeDigits ds) : digitsVal ds < 1000 := by
  have := digitsVal_lt ds
  rcases h.1 with h | h <;> rw [h] at this <;> omega

theorem wind_shown {w : WindGroup} {x : MetarWind} (hw : w.WF) (h : WindSays w x) :
    w.Shows x.str := by
  obtain ⟨hd, hs, hg⟩ := hw
  obtain ⟨-, h2, h3, h4⟩ := h
  have hspeed : ∃ s, SpeedShown w.mps w.speed.number s ∧ present [speedStr x.speed] = s := by
    cases hsp : w.speed with
    | undef2 =>
      rw [hsp] at h3
      have : x.speed = none := h3
      refine ⟨[], rfl, ?_⟩
      rw [this]; rfl
    | undef3 =>
      rw [hsp] at h3
      have : x.speed = none := h3
      refine ⟨[], rfl, ?_⟩
      rw [this]; rfl
    | digits ds =>
      rw [hsp] at h3 hs
      have hk := knots_shown (digits_lt_1000 hs) h3
      refine ⟨[speedStr x.speed], ⟨_, hk, rfl⟩, ?_⟩
      have hp := knots_phrase h3
      have : speedStr x.speed ≠ [] := by
        rcases hx : x.speed with _ | y
        · rw [hx] at h3
          simp only [Knots, WindSpeed.number] at h3
          split at h3
          · obtain ⟨_, h, _⟩ := h3; cases h
          · cases h3
        · exact phrase_ne (numStrUnit_phrase y (by decide))
      simp [present, this]
  obtain ⟨s, hs1, hs2⟩ := hspeed
  have hdir : ∃ a b, (x.direction.cardinal.getD []) = a ∧
      (if truthyO x.direction.value then py!"(" ++ x.direction.str ++ py!")" else x.direction.str) = b ∧
      (a = [] ∨ phrase a = true) ∧ (b = [] ∨ phrase b = true) ∧ w.dir.Shows (present [a, b]) := by
    rw [h2]
    refine ⟨_, _, rfl, rfl, ?_⟩
    cases hwd : w.dir with
    | undef => exact ⟨Or.inl rfl, Or.inl rfl, rfl⟩
    | vrb => exact ⟨Or.inl rfl, Or.inr (by decide), rfl⟩
    | tens n =>
      rw [hwd] at hd
      have hd : n ≤ 36 := hd
      by_cases h0 : n = 0
      · subst h0
        exact ⟨Or.inr (by decide +kernel), Or.inr (by decide +kernel), by
          show _ = _
          decide +kernel⟩
      · obtain ⟨name, t, hc, e1, e2⟩ := compass (n := 10 * n) (by omega) (by omega)
        have e3 : (decide (WindDir.tens n = WindDir.vrb)) = false := by simp
        simp only [WindDir.degrees, Option.map_some, e3, truthyO, truthy_whole, e1, ← e2]
        have hn : (10 * n ≠ 0) := by omega
        simp only [ne_eq, hn, not_false_eq_true, decide_true, if_true, Option.getD_some]
        have hp1 := points_phrase name (cardinal_mem hc.1)
        have hp2 : phrase t = true := by
          rw [hc.2]
          refine phrase_append (phrase_append (by decide) ?_) (by decide)
          have := fmt1_nonspace (whole (10 * n))
          rw [fmt1_whole] at this
          exact tidy_of_all _ this.1 this.2
        refine ⟨Or.inr hp1, Or.inr hp2, ?_⟩
        simp only [WindDir.Shows, h0, if_false]
        exact ⟨name, t, hc, by simp [present, phrase_ne hp1, phrase_ne hp2]⟩
  obtain ⟨a, b, ha, hb, ha', hb', hshow⟩ := hdir
  have hgust : GustShown w.mps w.gustNumber
      (if truthyO x.gust then py!" gust of " ++ speedStr x.gust else []) := by
    cases hgu : w.gust with
    | none =>
      simp only [WindGroup.gustNumber, hgu, Option.map_none] at h4 ⊢
      have : x.gust = none := h4
      rw [this]; rfl
    | some g =>
      obtain ⟨p, ds⟩ := g
      simp only [WindGroup.gustNumber, hgu, Option.map_some] at h4 ⊢
      have hk := knots_shown (digits_lt_1000 (hg p ds hgu)) h4
      rw [knots_truthy h4]
      unfold GustShown
      by_cases h0 : digitsVal ds = 0
      · simp [h0]
      · simp only [h0, if_false, ne_eq, not_false_eq_true, decide_true, if_true]
        exact ⟨_, hk, rfl⟩
  refine ⟨_, _, _, hshow, hs1, hgust, ?_⟩
  unfold MetarWind.str windStr
  simp only [ha, hb]
  have hj : a ++ py!" " ++ b ++ py!" " ++ speedStr x.speed = join [32] [a, b, speedStr x.speed] := by
    simp [join]
  rw [hj]
  have hsq := squeezed [a, b, speedStr x.speed] (by
    intro v hv
    simp only [List.mem_cons, List.not_mem_nil, or_false] at hv
    rcases hv with rfl | rfl | rfl
    · exact ha'
    · exact hb'
    · exact knots_phrase h3)
  unfold sq at hsq
  rw [hsq]
  congr 1
  have : present [a, b, speedStr x.speed] = present [a, b] ++ present [speedStr x.speed] := by
    unfold present
    rw [← List.filter_append]; rfl
  rw [this, hs2]

theorem variation_shown {v : VariationGroup} {x : WindVariation} (hw : v.WF)
    (h : variationGrammar.Says v x) : v.Shows x.str := by
  obtain ⟨h1, h2, h3, h4⟩ := hw
  obtain ⟨-, hf, ht⟩ := h
  obtain ⟨n1, t1, c1, e1, e1'⟩ := compass (n := 10 * v.from_) (by omega) (by omega)
  obtain ⟨n2, t2, c2, e2, e2'⟩ := compass (n := 10 * v.to) (by omega) (by omega)
  refine ⟨n1, t1, n2, t2, c1, c2, ?_⟩
  unfold WindVariation.str
  rw [hf, ht, if_neg (by simp), e1, e2, e1', e2']
  simp [fmtO]

/-! ### Visibility -/

theorem M_TO_KM_rel : Rel ulp Conv.M_TO_KM.val (1 / 1000) := by decide +kernel
theorem M_TO_KM_sgn : Conv.M_TO_KM.sgn = false := by decide +kernel

/-- Metres in kilometres. -/
theorem km_shown {v q : Rat} (h : Rel (1 / 10 ^ 15) v q) (hq : q ≤ 1000000) :
    OneDecimal (q / 1000) (fmt1 ((⟨v, false⟩ : F64).mul Conv.M_TO_KM)) := by
  have hv := h.nonneg (by decide +kernel)
  rw [F64.mul_pos_val (F64.sgn_false hv) M_TO_KM_sgn]
  have h1 := h.mul_right (c := Conv.M_TO_KM.val) (by decide +kernel)
  have h2 := M_TO_KM_rel.mul_left h.1
  have h3 := (h1.trans (by decide +kernel) h2).rnd (by decide +kernel)
  have e : q * (1 / 1000) = q / 1000 := by grind
  rw [e] at h3
  have h4 : Rel (1 / 10 ^ 14) (rnd (v * Conv.M_TO_KM.val)) (q / 1000) := h3.mono (by decide +kernel)
  refine fmt1_oneDecimal (h4.nonneg (by decide +kernel)) (h4.2.mono ?_)
  grind

theorem digit_div_le (a b : Nat) : (digitVal a : Rat) / (digitVal b : Rat) ≤ 9 ∧
    0 ≤ (digitVal a : Rat) / (digitVal b : Rat) := by
  have ha := digitVal_lt a
  have hb := digitVal_lt b
  have : ∀ x < 10, ∀ y < 10, ((x : Nat) : Rat) / ((y : Nat) : Rat) ≤ 9 ∧
      0 ≤ ((x : Nat) : Rat) / ((y : Nat) : Rat) := by decide +kernel
  exact this _ ha _ hb

theorem amount_le {r : Range} (h : r.WF) : r.amount ≤ 108 := by
  unfold Range.amount
  have h1 : wholePart r.integer ≤ 99 := by
    unfold wholePart
    cases hi : r.integer with
    | none => decide
    | some ds =>
      have hl := (h.1 ds hi).1
      have := digitsVal_lt ds
      have hlt : digitsVal ds ≤ 99 := by
        rcases hl with hl | hl <;> rw [hl] at this <;> omega
      exact Rat.natCast_le_natCast.2 hlt
  have h2 : fractionPart r.fraction ≤ 9 := by
    unfold fractionPart
    cases r.fraction with
    | none => decide
    | some ab => exact (digit_div_le ab.1 ab.2).1
  grind

theorem metres_shown {g : VisGroup} {x : Option F64} (hw : g.WF) (h : g.SaysMetres x) :
    match g.metresStated with
      | none => inKilometers x = none ∧ distanceStr x = []
      | some q => ∃ y, inKilometers x = some y ∧ OneDecimal (q / 1000) (fmt1 y) := by
  have key : ∀ n : Nat, n ≤ 1000000 → OneDecimal ((n : Rat) / 1000) (fmt1 ((whole n).mul Conv.M_TO_KM)) := by
    intro n hn
    refine km_shown ((Rel.refl Rat.natCast_nonneg).mono (by decide +kernel)) ?_
    have := Rat.natCast_le_natCast.2 hn
    exact this
  cases g with
  | cavok =>
    have : x = some (whole 10000) := h
    subst this
    exact ⟨_, rfl, key 10000 (by omega)⟩
  | metres v dir =>
    have hx : x = v.number.map whole := h
    subst hx
    cases v with
    | undef => exact ⟨rfl, rfl⟩
    | digits ds =>
      have hd : digitsVal ds < 10 ^ ds.length := digitsVal_lt ds
      rw [hw.1.1] at hd
      refine ⟨_, rfl, key _ ?_⟩
      split <;> omega
  | range r =>
    unfold VisGroup.SaysMetres at h
    unfold VisGroup.metresStated
    cases hu : r.unit with
    | sm =>
      simp only [hu] at h
      simp only [hu]
      by_cases hn : r.integer = none ∧ r.fraction = none
      · rw [if_pos hn] at h
        simp only [hn, and_self, if_true]
        subst h
        exact ⟨rfl, rfl⟩
      · rw [if_neg hn] at h
        simp only [if_neg hn]
        obtain ⟨v, rfl, hr⟩ := h
        refine ⟨_, rfl, km_shown hr ?_⟩
        have := amount_le hw
        grind
    | km =>
      simp only [hu] at h
      simp only [hu]
      subst h
      cases hi : r.integer with
      | none => exact ⟨rfl, rfl⟩
      | some ds =>
        have hl := (hw.1 ds hi).1
        have := digitsVal_lt ds
        refine ⟨_, rfl, key _ ?_⟩
        rcases hl with hl | hl <;> rw [hl] at this <;> omega
    | m =>
      simp only [hu] at h
      simp only [hu]
      subst h
      exact ⟨rfl, rfl⟩
    | u =>
      simp only [hu] at h
      simp only [hu]
      subst h
      exact ⟨rfl, rfl⟩

theorem degrees_le (g : VisGroup) : ∀ d, g.degrees = some d → 0 < d ∧ d ≤ 360 := by
  intro d hd
  unfold VisGroup.degrees at hd
  split at hd
  · next s =>
    have t : ∀ p ∈ visSuffixes, ∀ d, p.2 = some d → 0 < d ∧ d ≤ 360 := by
      intro p hp d hd
      have t : ∀ p ∈ visSuffixes, p.2.all (fun d => decide (0 < d ∧ d ≤ 360)) = true := by decide
      have := t p hp
      rw [hd] at this
      simpa using this
    cases hl : visSuffixes.lookup s with
    | none => rw [hl] at hd; cases hd
    | some o =>
      rw [hl] at hd
      have hd : o = some d := hd
      subst hd
      obtain ⟨l1, l2, e, -⟩ := List.lookup_eq_some_iff.1 hl
      exact t (s, some d) (by rw [e]; simp) d rfl
  · cases hd

theorem vis_shown {g : VisGroup} {x : Visibility} (hw : g.WF) (h : VisSays g x) : g.Shows x.str := by
  obtain ⟨h1, h2, h3⟩ := h
  unfold VisGroup.Shows Visibility.str
  by_cases hc : g = .cavok
  · rw [if_pos hc, if_pos (h3.2 hc)]
  · rw [if_neg hc, if_neg (fun e => hc (h3.1 e))]
    have hm := metres_shown hw h1
    refine ⟨(match inKilometers x.vis with
      | some x => fmt1 x ++ py!" km"
      | Option.none => distanceStr x.vis),
      (if truthyO x.direction.value then
        py!" to " ++ fmtO x.direction.cardinal ++ py!" (" ++ x.direction.str ++ py!")" else []), ?_, ?_, ?_⟩
    · cases hq : g.metresStated with
      | none =>
        rw [hq] at hm
        obtain ⟨e1, e2⟩ := hm
        rw [e1, e2]
      | some q =>
        rw [hq] at hm
        obtain ⟨y, e1, e2⟩ := hm
        rw [e1]
        exact ⟨_, e2, rfl⟩
    · rw [h2]
      cases hd : g.degrees with
      | none => rfl
      | some d =>
        obtain ⟨d0, d1⟩ := degrees_le g d hd
        obtain ⟨name, t, hcc, e1, e2⟩ := compass (n := d) d1 d0
        refine ⟨name, t, hcc, ?_⟩
        simp only [Option.map_some, truthyO, truthy_whole, e1, e2]
        rw [if_pos (by simp; omega)]
        simp [fmtO]
    · by_cases ht : truthyO x.direction.value = true
      · simp only [ht, if_true, List.append_assoc]; rfl
      · simp only [ht]; exact (List.append_nil _).symm

/-! ### Runway visual range -/

theorem range_value_shown {v : RangeValue} {feet : Bool} {x : Option F64} (hw : v.WF)
    (h : v.SaysMetres feet x) (rvr : Option PyStr) (hr : rvr = v.limit.map Limit.means) :
    v.Shows feet (range2str x rvr) ∧ x ≠ none ∧ truthyO x = decide (digitsVal v.digits ≠ 0) := by
  have hb : digitsVal v.digits < 10000 := by
    have := digitsVal_lt v.digits
    rcases hw.1 with h | h | h <;> rw [h] at this <;> omega
  have hlim : x ≠ none → range2str x rvr = limitShows v.limit ++ distanceStr x := by
    intro hx
    unfold range2str
    rw [if_neg hx, hr]
    cases v.limit with
    | none => rfl
    | some l => cases l <;> simp [strTruthy, Limit.means, fmtO, limitShows]
  unfold RangeValue.SaysMetres at h
  cases feet with
  | true =>
    simp only [if_true] at h
    obtain ⟨y, rfl, hy⟩ := h
    refine ⟨⟨_, hlim (by simp), ?_⟩, by simp, ?_⟩
    · simp only [if_true]
      refine numStrUnit_rel (by decide +kernel) hy ?_
      have hn := Rat.natCast_le_natCast.2 (Nat.le_of_lt hb)
      have c : ((10000 : Nat) : Rat) = 10000 := rfl
      rw [c] at hn
      grind
    · obtain ⟨h0, h1, h2⟩ := hy
      simp only [truthyO, F64.truthy]
      have e : y = 0 ↔ digitsVal v.digits = 0 := by
        rw [← Rat.natCast_eq_zero_iff]
        constructor <;> intro h <;> grind
      simp [e]
  | false =>
    simp only [Bool.false_eq_true, if_false] at h
    subst h
    refine ⟨⟨_, hlim (by simp), ?_⟩, by simp, ?_⟩
    · simp only [Bool.false_eq_true, if_false]
      exact numStrUnit_whole _ _
    · simp only [truthyO, truthy_whole]
      by_cases h9 : v.digits = py!"9999"
      · rw [h9]; decide
      · rw [if_neg h9]

theorem range_shown {g : RangeGroup} {x : RunwayRange} (hw : g.WF) (h : RangeSays g x) :
    g.Shows x.str := by
  obtain ⟨h1, h2, h3⟩ := hw
  obtain ⟨s1, s2, s3⟩ := range_value_shown h2 h.low _ h.lowLimit
  refine ⟨range2str x.low x.rvrLow,
    (if truthyO x.high then py!" varying to " ++ range2str x.high x.rvrHigh else []), s1, ?_, ?_⟩
  · cases hh : g.high with
    | none =>
      rw [h.noHigh hh]
      rfl
    | some v =>
      obtain ⟨t1, t2, t3⟩ := range_value_shown (h3 v hh) (h.high v hh) x.rvrHigh
        (by rw [h.highLimit, hh]; rfl)
      rw [t3]
      by_cases h0 : digitsVal v.digits = 0
      · simp [h0]
      · simp only [h0, if_false, ne_eq, not_false_eq_true, decide_true, if_true]
        exact ⟨_, t1, rfl⟩
  · unfold RunwayRange.str
    rw [if_neg s2, h.name, h.trend]
    have e : (if strTruthy (g.tendency.map Tendency.means) then
        py!", " ++ fmtO (g.tendency.map Tendency.means) else []) =
        (match g.tendency with
          | none => []
          | some x => py!", " ++ x.means) := by
      cases g.tendency with
      | none => rfl
      | some t => cases t <;> rfl
    rw [e]
    simp only [fmtO, List.append_assoc]
    rfl

/-! ### Weather -/

theorem filterMap_maps (os : List (Option PyStr)) : os.filterMap id = os.flatMap Option.toList := by
  induction os with
  | nil => rfl
  | cons o os ih => cases o <;> simp [ih]

theorem toList_map {α : Type} (f : α → PyStr) (o : Option α) : (o.map f).toList = o.toList.map f := by
  cases o <;> rfl

theorem intensity_ok (a : Intensity) : 78 ∉ a.means ∧ phrase a.means = true := by
  cases a <;> decide
theorem descriptor_ok (a : Descriptor) : 78 ∉ a.means ∧ phrase a.means = true := by
  cases a <;> decide
theorem precipitation_ok (a : Precipitation) : 78 ∉ a.means ∧ phrase a.means = true := by
  cases a <;> decide
theorem obscuration_ok (a : Obscuration) : 78 ∉ a.means ∧ phrase a.means = true := by
  cases a <;> decide
theorem other_ok (a : OtherWeather) : 78 ∉ a.means ∧ phrase a.means = true := by
  cases a <;> decide

theorem map_ok {α : Type} {f : α → PyStr} (hf : ∀ a, 78 ∉ f a ∧ phrase (f a) = true) {o : Option α}
    {s : PyStr} (h : some s = o.map f) : 78 ∉ s ∧ phrase s = true := by
  cases o with
  | none => cases h
  | some a =>
    obtain rfl : s = f a := Option.some.inj h
    exact hf a

theorem weather_shown {w : WeatherGroup} {x : Weather} (h : weatherGrammar.Says w x) :
    x.str = w.shows := by
  obtain ⟨-, h1, h2, h3, h4, h5⟩ := h
  unfold Weather.str
  rw [weatherText_eq]
  · unfold WeatherGroup.shows
    rw [filterMap_maps, h1, h2, h3, h4, h5]
    simp only [List.flatMap_cons, List.flatMap_nil, List.append_nil, toList_map, List.append_assoc]
  · intro s hs
    simp only [List.mem_cons, List.not_mem_nil, or_false] at hs
    rcases hs with h | h | h | h | h
    · exact map_ok intensity_ok (h.trans h1)
    · exact map_ok descriptor_ok (h.trans h2)
    · exact map_ok precipitation_ok (h.trans h3)
    · exact map_ok obscuration_ok (h.trans h4)
    · exact map_ok other_ok (h.trans h5)

theorem recent_shown {w : RecentGroup} {x : RecentWeather} (h : recentGrammar.Says w x) :
    x.str = w.shows := by
  obtain ⟨-, h2, h3, h4, h5⟩ := h
  unfold RecentWeather.str
  rw [weatherText_eq]
  · unfold RecentGroup.shows
    rw [filterMap_maps, h2, h3, h4, h5]
    simp only [List.flatMap_cons, List.flatMap_nil, List.append_nil, toList_map, List.append_assoc]
  · intro s hs
    simp only [List.mem_cons, List.not_mem_nil, or_false] at hs
    rcases hs with h | h | h | h
    · exact map_ok descriptor_ok (h.trans h2)
    · exact map_ok precipitation_ok (h.trans h3)
    · exact map_ok obscuration_ok (h.trans h4)
    · exact map_ok other_ok (h.trans h5)

/-! ### Clouds -/

theorem cloud_shown {l : Layer} {c : Cloud} (h : CloudSays l c) : c.str = l.shows := by
  have hcov : fmtO c.cover = orNone l.cover.words := by
    rw [h.cover]
    cases l.cover.words <;> rfl
  have flat : truthyO c.height = false → c.str =
      (match l.cover with
        | .skc | .clr | .nsc | .ncd | .undef | .vv => orNone l.cover.words
        | .few | .sct | .bkn | .ovc | .zvc => orNone l.cover.words ++ py!" at undefined height") := by
    intro ht
    unfold Cloud.str
    simp only [ht, Bool.false_eq_true, and_false, if_false, hcov]
    rw [h.cover]
    cases l.cover <;> rfl
  unfold Layer.shows
  cases hb : l.base.hundredsOfFeet with
  | none =>
    rw [flat (by rw [(h.noHeight hb).1]; rfl)]
    simp only
    cases l.cover <;> rfl
  | some k =>
    cases k with
    | zero =>
      rw [flat (by rw [h.ground hb]; decide)]
      simp only
      cases l.cover <;> rfl
    | succ k =>
      obtain ⟨x, f, e1, e2, w1, w2⟩ := h.height _ hb
      have hp := natCast_pos (n := k + 1) (by omega)
      have h1 : (1 : Rat) ≤ ((k + 1 : Nat) : Rat) := by
        have := Rat.natCast_le_natCast.2 (show 1 ≤ k + 1 by omega)
        exact this
      have ht : truthyO c.height = true := by
        rw [e1]
        have : x ≠ 0 := by
          obtain ⟨a, b⟩ := w1
          grind
        simp [truthyO, F64.truthy, this]
      have hf : numStr c.heightInFeet = wholeText (100 * (k + 1)) := by
        rw [e2]
        refine fmt1_near ?_ ?_
        · obtain ⟨a, b⟩ := w2
          grind
        · rw [Rat.natCast_mul]
          exact w2.mono (by decide +kernel)
      unfold Cloud.str
      simp only [ht, hf, hcov, and_true, if_true]
      rw [h.type]
      cases l.kind <;> simp [Kind.words, fmtO]

/-! ### Temperatures and pressure -/

theorem degrees_shown (t : TempPart) :
    temperatureStr t.degrees = t.shows.getD [] ∧ (t.degrees = none ↔ t.shows = none) ∧
      truthyO t.degrees = t.number.value.any fun n => decide (n ≠ 0) := by
  unfold TempPart.degrees TempPart.shows
  cases t.number.value with
  | none => exact ⟨rfl, by simp, rfl⟩
  | some n =>
    refine ⟨numStrUnit_signed _ _ _, by simp, ?_⟩
    simp only [Option.map_some, truthyO, Option.any_some, F64.truthy, signed]
    have hz : (n : Rat) = 0 ↔ n = 0 := Rat.natCast_eq_zero_iff
    rw [Bool.eq_iff_iff]
    simp only [decide_eq_true_eq]
    cases t.minus.isSome
    · simp [hz]
    · have : (-(n : Rat)) = 0 ↔ n = 0 := by rw [← hz]; constructor <;> intro h <;> grind
      simp [this]

theorem temp_shown {g : TempGroup} {x : Temperatures} (h : tempGrammar.Says g x) :
    x.str = g.shows := by
  obtain ⟨-, h1, h2⟩ := h
  obtain ⟨a1, a2, a3⟩ := degrees_shown g.air
  obtain ⟨d1, d2, d3⟩ := degrees_shown g.dew
  unfold Temperatures.str TempGroup.shows
  rw [h1, h2, a1, d1]
  cases ha : g.air.shows with
  | none =>
    have ha' := a2.2 ha
    cases hd : g.dew.shows with
    | none =>
      have hd' := d2.2 hd
      simp [ha', hd']
    | some t =>
      have hd' : g.dew.degrees ≠ none := by simp [d2, hd]
      simp only [ha', hd', and_false, if_false, true_and, d3, ne_eq, not_true_eq_false,
        Option.getD_none, Option.getD_some]
      cases hv : g.dew.number.value with
      | none => simp [TempPart.shows, hv] at hd
      | some n =>
        by_cases h0 : n = 0 <;> simp [h0]
  | some s =>
    have ha' : g.air.degrees ≠ none := by simp [a2, ha]
    cases hd : g.dew.shows with
    | none =>
      have hd' := d2.2 hd
      simp [ha', hd']
    | some t =>
      have hd' : g.dew.degrees ≠ none := by simp [d2, hd]
      simp [ha', hd']

theorem press_shown {g : PressGroup} {x : MetarPressure} (hw : g.WF) (h : PressSays g x) :
    g.Shows x.str := by
  unfold PressGroup.Shows PressGroup.hectopascals MetarPressure.str
  cases hn : g.number with
  | none =>
    rw [h.missing hn]
    rfl
  | some ds =>
    have hb := digitsVal_lt ds
    rw [(hw ds hn).1] at hb
    simp only [Option.map_some]
    have zero : digitsVal ds = 0 → pressureStr x.value = py!"0.0" := by
      intro h0
      rw [h.zero ds hn h0]
      decide +kernel
    have exact_ : x.value = some (whole (digitsVal ds)) →
        Measure py!" hPa" (digitsVal ds : Rat) (pressureStr x.value) := by
      intro e
      rw [e]
      exact numStrUnit_near Rat.natCast_nonneg ((Within.refl _).mono (by decide +kernel)) Iff.rfl
    have near : ∀ q : Rat, (q = 0 → digitsVal ds = 0) → (digitsVal ds ≠ 0 → 1 / 10 ≤ q) →
        (digitsVal ds = 0 → q = 0) →
        (∃ v : Rat, x.value = some ⟨v, false⟩ ∧ Within (1 / 10 ^ 9) v q) →
        Measure py!" hPa" q (pressureStr x.value) := by
      intro q hq0 hq1 hq2 ⟨v, e, hv⟩
      by_cases h0 : digitsVal ds = 0
      · rw [zero h0]
        simp [Measure, hq2 h0]
      · have := hq1 h0
        rw [e]
        obtain ⟨a, b⟩ := hv
        refine numStrUnit_near ?_ ⟨a, b⟩ ?_
        · grind
        · constructor <;> intro h <;> grind
    have hz : (digitsVal ds : Rat) = 0 ↔ digitsVal ds = 0 := Rat.natCast_eq_zero_iff
    have h1 : digitsVal ds ≠ 0 → (1 : Rat) ≤ digitsVal ds := by
      intro h
      exact Rat.natCast_le_natCast.2 (show 1 ≤ digitsVal ds by omega)
    by_cases hi : g.Inches
    · have hi' : g.letters = some .A ∨ g.ins = true := hi
      rw [if_pos hi']
      refine near _ ?_ ?_ ?_ (h.inches ds hn hi)
      · intro e; rw [← hz]; grind
      · intro e; have := h1 e; grind
      · intro e; rw [hz.2 e]; decide +kernel
    · have hi' : ¬ (g.letters = some .A ∨ g.ins = true) := hi
      rw [if_neg hi']
      have hins : g.ins = false := by
        cases hg : g.ins
        · rfl
        · exact absurd (Or.inr hg) hi
      cases hl : g.letters with
      | none =>
        have hbare : g.Bare := ⟨hl, hins⟩
        by_cases h25 : 2500 < digitsVal ds
        · rw [if_pos ⟨rfl, h25⟩]
          refine near _ ?_ ?_ ?_ (h.bareHigh ds hn hbare h25)
          · intro e; rw [← hz]; grind
          · intro e; have := h1 e; grind
          · intro e; rw [hz.2 e]; decide +kernel
        · rw [if_neg (fun e => h25 e.2)]
          exact exact_ (h.bareLow ds hn hbare (by omega))
      | some p =>
        have hh : g.Hecto := by
          refine ⟨?_, hins⟩
          cases p with
          | A => exact absurd (Or.inl hl) hi
          | Q => exact Or.inl hl
          | QNH => exact Or.inr hl
        rw [if_neg (fun e => by cases e.1)]
        exact exact_ (h.hecto ds hn hh)

/-! ### Wind shear and sea -/

theorem shear_shown {g : ShearGroup} {x : Windshear} (hw : g.WF) (h : shearGrammar.Says g x) :
    x.str = g.shows := by
  obtain ⟨-, h1, h2⟩ := h
  unfold Windshear.str ShearGroup.shows
  rw [h2]
  have h1 : strTruthy x.all = g.all := h1
  cases hr : g.runway with
  | none =>
    show (if strTruthy none then _ else if strTruthy x.all then _ else _) = _
    rw [h1]; rfl
  | some r =>
    have hl := (hw r hr).1
    have : r.plain ≠ [] := by
      unfold RunwayCode.plain
      cases r.side with
      | none =>
        intro e
        simp only at e
        rw [e] at hl
        cases hl
      | some s => simp
    simp [strTruthy, this]

theorem sea_shown {g : SeaGroup} {x : SeaState} (hw : g.WF) (h : seaGrammar.Says g x) :
    x.str = g.shows := by
  obtain ⟨-, h1, h2, h3⟩ := h
  unfold SeaState.str SeaGroup.shows
  rw [h1, h2, h3, if_neg (by simp)]
  have et : truthyO (some (signed g.minus (digitsVal g.temp))) = decide (digitsVal g.temp ≠ 0) := by
    have := (degrees_shown ⟨if g.minus then some .dash else none, .digits g.temp⟩).2.2
    simp only [TempPart.degrees, TempNumber.value, Option.map_some, Option.any_some] at this
    have e : (if g.minus then some Minus.dash else none).isSome = g.minus := by cases g.minus <;> rfl
    rw [e] at this
    exact this
  rw [et, temperatureStr, numStrUnit_signed]
  congr 1
  · congr 1
    · by_cases h0 : digitsVal g.temp = 0 <;> simp [h0, celsius]
    · cases hv : g.value with
      | state d => rfl
      | height ds =>
        have hd := digitsVal_lt ds
        have hl : ds.length = 3 := by
          have := hw.2
          rw [hv] at this
          exact this.1
        rw [hl] at hd
        have em : (SeaValue.height ds).metres = some ⟨rnd ((digitsVal ds : Rat) / 10), false⟩ := rfl
        rw [em]
        have hn : (0 : Rat) ≤ (digitsVal ds : Rat) / 10 := by
          have : (0 : Rat) ≤ digitsVal ds := Rat.natCast_nonneg
          grind
        have hb : (digitsVal ds : Rat) / 10 ≤ 100 := by
          have := Rat.natCast_le_natCast.2 (Nat.le_of_lt hd)
          have c : ((10 ^ 3 : Nat) : Rat) = 1000 := rfl
          rw [c] at this
          grind
        have hr := rnd_relW _ hn
        have ht : truthyO (some ⟨rnd ((digitsVal ds : Rat) / 10), false⟩) = decide (digitsVal ds ≠ 0) := by
          simp only [truthyO, F64.truthy]
          have e : rnd ((digitsVal ds : Rat) / 10) = 0 ↔ digitsVal ds = 0 := by
            rw [← Rat.natCast_eq_zero_iff]
            obtain ⟨-, a, b⟩ := hr
            unfold ulp at a b
            constructor <;> intro h <;> grind
          simp [e]
        rw [ht]
        have hf : fmt1 ⟨rnd ((digitsVal ds : Rat) / 10), false⟩ = tenths (digitsVal ds) :=
          fmt1_near_tenths (rnd_nonneg _ hn) ((rnd_within hn hb).mono (by decide +kernel))
        by_cases h0 : digitsVal ds = 0
        · simp [h0]
        · simp only [h0, ne_eq, not_false_eq_true, decide_true, if_true, if_false]
          unfold distanceStr numStrUnit
          simp [ht, h0, numStr, hf]
  · cases hs : g.value.stateWord with
    | none => rfl
    | some s =>
      have : s ≠ [] := by
        cases hv : g.value with
        | height ds => rw [hv] at hs; cases hs
        | state d =>
          rw [hv] at hs
          simp only [SeaValue.stateWord, digitWord] at hs
          split at hs
          · have := List.mem_of_getElem? hs
            have t : ∀ s ∈ seaWords, s ≠ [] := by decide
            exact t s this
          · cases hs
      simp [strTruthy, this]

end Verif
