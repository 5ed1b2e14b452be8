import Verif.Lemmas.MadeGroups
import Verif.Lemmas.Read
import Verif.Lemmas.Str
import Verif.Lemmas.Sections

/-
What the dictionaries of reports are made of.
-/

namespace Verif
open Spec

variable {P : Nat → Prop}

/-! ### The texts of the groups -/

theorem text_splitC {sep : Nat} (hP : Ascii P) {s : PyStr} (hs : ∀ c ∈ s, P c) : ∀ w ∈ splitC sep s, ∀ c ∈ w, P c :=
  fun w hw => text_of_not_mem hP hs fun _ _ h => not_mem_splitC h w hw

theorem text_visibility (hP : Ascii P) {s : PyStr} (hs : ∀ c ∈ s, P c) : ∀ c ∈ sanitizeVisibility s, P c :=
  text_of_not_mem hP hs fun x hx h => not_mem_sanitizeVisibility (by omega) (by omega) h

theorem text_windshear (hP : Ascii P) {s : PyStr} (hs : ∀ c ∈ s, P c) : ∀ c ∈ sanitizeWindshear s, P c :=
  text_of_not_mem hP hs fun _ hx h => not_mem_sanitizeWindshear (not_mem_lit rfl hx) h

theorem text_indicator (hP : Ascii P) {s : PyStr} (hs : ∀ c ∈ s, P c) : ∀ c ∈ sanitizeChangeIndicator s, P c :=
  text_of_not_mem hP hs fun _ hx h => not_mem_sanitizeChangeIndicator (not_mem_lit rfl hx) h

theorem text_sentence (hP : Ascii P) {s : PyStr} (hs : ∀ c ∈ s, P c) {kws : List PyStr} {n : Nat} {sp : Space}
    (hk : kws.all (fun kw => (lstrip (sp.add kw)).all (· < 128)) = true) :
    ∀ w ∈ splitSentence s kws n sp, ∀ c ∈ w, P c := by
  intro w hw
  refine text_of_not_mem hP hs fun x hx h => not_mem_splitSentence h (by omega) ?_ w hw
  exact fun kw hkw => not_mem_lit (List.all_eq_true.1 hk kw hkw) hx

theorem text_strip {s : PyStr} (hs : ∀ c ∈ s, P c) : ∀ c ∈ strip s, P c := fun c hc => hs c (strip_mem hc)

theorem text_normalize (hP : Ascii P) {s : PyStr} (hs : ∀ c ∈ s, P c) : ∀ c ∈ normalizeCode s, P c := by
  unfold normalizeCode
  refine text_replace hP (by decide) ?_ rfl
  exact text_of_not_mem hP (text_strip hs) fun _ hx h => not_mem_sub h (not_mem_lit rfl hx)

theorem text_metarSections (hP : Ascii P) {s : PyStr} (hs : ∀ c ∈ s, P c) :
    (∀ c ∈ (metarSections s).1, P c) ∧ (∀ c ∈ (metarSections s).2.1, P c) ∧ ∀ c ∈ (metarSections s).2.2, P c := by
  have key : ∀ x, 128 ≤ x → x ∉ s → x ∉ (metarSections s).1 ∧ x ∉ (metarSections s).2.1 ∧ x ∉ (metarSections s).2.2 := by
    intro x hx h
    have hw : ∀ w ∈ splitSentence s [py!"NOSIG", py!"TEMPO", py!"BECMG", py!"RMK"] 0 .left, x ∉ w := by
      refine not_mem_splitSentence h (by omega) fun kw hkw => not_mem_lit ?_ hx
      revert kw
      decide +kernel
    have := not_mem_metarSectionsGo (x := x) (by omega) _ hw [] [] [] (by simp) (by simp) (by simp)
    exact ⟨this.1, fun hm => this.2.1 (strip_mem hm), this.2.2⟩
  exact ⟨text_of_not_mem hP hs fun x hx h => (key x hx h).1, text_of_not_mem hP hs fun x hx h => (key x hx h).2.1,
    text_of_not_mem hP hs fun x hx h => (key x hx h).2.2⟩

theorem text_tafSections (hP : Ascii P) {s : PyStr} (hs : ∀ c ∈ s, P c) :
    (∀ c ∈ (tafSections s).1, P c) ∧ ∀ w ∈ (tafSections s).2, ∀ c ∈ w, P c := by
  have h1 := text_indicator hP hs
  have h2 : ∀ c ∈ (if startsWith (sanitizeChangeIndicator s) py!"TAF" then
      replace (sanitizeChangeIndicator s) py!"TAF " py!"TAF_" else sanitizeChangeIndicator s), P c := by
    split
    · exact text_replace hP (by decide) h1 rfl
    · exact h1
  have h3 := text_sentence hP h2 (kws := [py!"FM", py!"TEMPO", py!"BECMG", py!"PROB"]) (n := 0) (sp := .left)
    (by decide +kernel)
  unfold tafSections
  simp only
  split
  · simp
  · next b cs he =>
    rw [he] at h3
    exact ⟨text_replace hP (old := py!"TAF_") (by decide) (h3 b (by simp)) rfl, fun w hw => h3 w (List.mem_cons_of_mem _ hw)⟩

/-! ### From groups to attributes -/

theorem leftover_mem {gs : List PyStr} {asg : List (Option Nat)} {g : PyStr} (h : g ∈ leftover gs asg) : g ∈ gs := by
  unfold leftover at h
  obtain ⟨⟨g', o⟩, hm, he⟩ := List.mem_filterMap.1 h
  simp only at he
  split at he
  · cases he
    exact (List.of_mem_zip hm).1
  · cases he

theorem made_single {α : Type} {Q : α → Prop} {c : List (PyStr × Nat)} {i : Nat} {re : RE} {f : Match → Except Exc α}
    {d x : α} (h : FromGroup c i re f d x) (hc : ∀ g i, (g, i) ∈ c → ∀ c ∈ g, P c) (hd : Q d)
    (hf : ∀ m y, (∀ c ∈ m.string, P c) → f m = .ok y → Q y) : Q x := by
  rcases h with ⟨g, m, h1, h2, h3⟩ | ⟨-, rfl⟩
  · exact hf m x (by rw [RE.match_string h2]; exact hc g i h1) h3
  · exact hd

theorem made_last {α : Type} {Q : α → Prop} {c : List (PyStr × Nat)} {lo hi : Nat} {re : RE} {f : Match → Except Exc α}
    {d x : α} (h : FromLast c lo hi re f d x) (hd : Q d) (hf : ∀ m y, f m = .ok y → Q y) : Q x := by
  rcases h with ⟨g, m, -, -, h3⟩ | ⟨-, rfl⟩
  · exact hf m x h3
  · exact hd

theorem made_all {α : Type} {Q : α → Prop} {c : List (PyStr × Nat)} {lo hi : Nat} {re : RE} {f : Match → Except Exc α}
    {xs : List α} (h : FromGroups c lo hi re f xs) (hc : ∀ g i, (g, i) ∈ c → ∀ c ∈ g, P c)
    (hf : ∀ m y, (∀ c ∈ m.string, P c) → f m = .ok y → Q y) : ∀ x ∈ xs, Q x := by
  intro x hx
  obtain ⟨g, hg, m, h1, h2⟩ := Spec.Each.right h x hx
  obtain ⟨i, -, -, hi⟩ := taken_mem hg
  exact hf m x (by rw [RE.match_string h1]; exact hc g i hi) h2

theorem made_labelled (hP : Ascii P) {α : Type} {f : α → Except Exc PyVal} {g : GroupList α} {d : PyVal}
    (hf : ∀ x ∈ g.list, ∀ v, f x = .ok v → Made P v) (h : g.asDict f = .ok d) : Made P d := by
  unfold GroupList.asDict at h
  obtain ⟨e, he, h⟩ := bind_ok.1 h
  cases pure_ok.1 h
  have key : ∀ (ls : List PyStr) (l : List α) (d e : List (PyStr × PyVal)), (∀ s ∈ ls, ∀ c ∈ s, P c) →
      (∀ x ∈ l, ∀ v, f x = .ok v → Made P v) → Entries P d → GroupList.asDictGo f ls l d = .ok e → Entries P e := by
    intro ls l
    induction l generalizing ls with
    | nil => intro d e _ _ hd h; cases ls <;> (cases h; exact hd)
    | cons a l ih =>
      intro d e hl hm hd h
      cases ls with
      | nil => cases h
      | cons s ls =>
        unfold GroupList.asDictGo at h
        obtain ⟨v, hv, h⟩ := bind_ok.1 h
        exact ih ls _ _ (fun s hs => hl s (List.mem_cons_of_mem _ hs)) (fun x hx => hm x (List.mem_cons_of_mem _ hx))
          (hd.set (hl s (by simp)) (hm a (by simp) v hv)) h
  refine (key _ _ _ _ ?_ hf .nil he).made
  have : GroupList.labels.all (fun s => s.all (· < 128)) = true := rfl
  exact fun s hs => hP.lit (List.all_eq_true.1 this s hs)

theorem iter_mem {α : Type} (g : GroupList α) : ∀ x ∈ g.iter.1, x ∈ g.list := by
  have key : ∀ (f : Nat) (g : GroupList α), ∀ x ∈ (g.iterGo f).1, x ∈ g.list := by
    intro f
    induction f with
    | zero => intro g x h; cases h
    | succ f ih =>
      intro g x h
      unfold GroupList.iterGo GroupList.next at h
      split at h
      · cases h
      · next a g' he =>
        split at he
        · cases he
        · injection he with hget hg
          subst hg
          simp only at h
          rcases List.mem_cons.1 h with rfl | h
          · exact List.mem_of_getElem? hget
          · exact ih { g with n := g.n + 1 } x h
  exact key _ g

theorem text_rules (hP : Ascii P) (v : Option F64) (cs : List Cloud) : TextOf P (flightRules v cs) := by
  have key : ∀ (p c : Option F64) (t : List (PyStr × F64 × F64)), (∀ x ∈ t, ∀ c ∈ x.1, P c) → TextOf P (rulesGo p c t) := by
    intro p c t
    induction t with
    | nil => intro _; exact .none
    | cons x t ih =>
      obtain ⟨n, a, b⟩ := x
      intro h
      have hn := h (n, a, b) (by simp)
      have ht := ih fun x hx => h x (List.mem_cons_of_mem _ hx)
      unfold rulesGo
      split
      · split
        · exact .some hn
        · exact ht
      · split
        · exact .some hn
        · exact ht
      · split
        · exact .some hn
        · exact ht
      · exact .some (hP.lit rfl)
  unfold flightRules
  simp only
  split
  · exact .none
  · refine key _ _ _ fun x hx => ?_
    have : flightRulesTable.all (fun x => x.1.all (· < 128)) = true := rfl
    exact hP.lit (List.all_eq_true.1 this x hx)

/-- The attributes shared by reports and changes. -/
structure MadeCore (P : Nat → Prop) (c : Core) : Prop where
  wind : Made P c.wind.dict
  prevailing : Made P c.prevailing.dictPrev
  weathers : ∀ x ∈ c.weathers.list, Made P x.dict
  clouds : ∀ x ∈ c.clouds.list, Made P x.dict

theorem made_forecast (hP : Ascii P) {code : Option PyStr} {c : Core} (hc : TextOf P code) (h : MadeCore P c) :
    Made P (forecastDict code c).1 := by
  refine (Entries.update (entries [h.wind, h.prevailing, .list ?_, .list ?_, made_text (text_rules hP _ _)] for hP)
    (made_code hP hc)).made
  · intro v hv
    obtain ⟨x, hx, rfl⟩ := List.mem_map.1 hv
    exact h.weathers x (iter_mem _ x hx)
  · intro v hv
    obtain ⟨x, hx, rfl⟩ := List.mem_map.1 hv
    exact h.clouds x (iter_mem _ x hx)

theorem made_visibility_none (hP : Ascii P) : Entries P Visibility.none.dictMin := made_min hP .none .none .none

theorem made_trend (hP : Ascii P) {code : PyStr} (hs : ∀ c ∈ code, P c) {t : DT} {p : ChangePeriod}
    (h : ChangePeriod.new code t = .ok p) : Made P p.dict.1 ∧ ∀ g ∈ p.unparsed, ∀ c ∈ g, P c := by
  obtain ⟨ind, asg, p1, -, -, -, -, -, hR, hp, hcode, -⟩ := ChangePeriod.new_reading h
  have h1 := text_replace hP (old := py!"_") (new := py!" ") (by decide) hs rfl
  have h2 := text_splitC (sep := 32) hP (text_visibility hP h1)
  have hc := fun g i (h : (g, i) ∈ consumed _ asg) => h2 g (consumed_mem h)
  refine ⟨made_forecast hP (by rw [hcode]; exact .some h1) ⟨?_, ?_, ?_, ?_⟩, ?_⟩
  · exact made_single (Q := fun w : MetarWind => Made P w.dict) hR.wind hc (made_wind_none hP) fun m y hm hy => made_wind hP hm hy
  · exact made_single (Q := fun v : Visibility => Made P v.dictPrev) hR.prevailing hc
      (made_prev hP .none .none .none) fun m y hm hy => made_prevailing hP hm hy
  · exact made_all hR.weathers.1 hc fun m y hm hy => by cases hy; exact made_weather hP hm
  · exact made_all hR.clouds.1 hc fun m y hm hy => made_cloud hP hm hy
  · rw [hp]
    exact fun g hg => h2 g (leftover_mem hg)

theorem made_change (hP : Ascii P) {code : PyStr} (hs : ∀ c ∈ code, P c) {v : Valid} {p : ChangeForecasted}
    (h : ChangeForecasted.new code v = .ok p) :
    (∀ c ∈ p.code, P c) ∧ MadeCore P p.core ∧ ∀ g ∈ p.unparsed, ∀ c ∈ g, P c := by
  obtain ⟨asg, p1, -, -, -, -, hR, hp, hcode, -⟩ := ChangeForecasted.new_reading h
  have h1 := text_replace hP (old := py!"_") (new := py!" ") (by decide) hs rfl
  have h2 := text_splitC (sep := 32) hP (text_visibility hP (text_indicator hP h1))
  have hc := fun g i (h : (g, i) ∈ consumed (splitC 32 (ChangeForecasted.text code)) asg) => h2 g (consumed_mem h)
  refine ⟨by rw [hcode]; exact h1, ⟨?_, ?_, ?_, ?_⟩, ?_⟩
  · exact made_single (Q := fun w : MetarWind => Made P w.dict) hR.wind hc (made_wind_none hP) fun m y hm hy => made_wind hP hm hy
  · exact made_single (Q := fun v : Visibility => Made P v.dictPrev) hR.prevailing hc
      (made_prev hP .none .none .none) fun m y hm hy => made_prevailing hP hm hy
  · exact made_all hR.weathers.1 hc fun m y hm hy => by cases hy; exact made_weather hP hm
  · exact made_all hR.clouds.1 hc fun m y hm hy => made_cloud hP hm hy
  · rw [hp]
    exact fun g hg => h2 g (leftover_mem hg)

theorem made_strings {l : List PyStr} (h : ∀ s ∈ l, ∀ c ∈ s, P c) : Made P (.list (l.map .str)) := by
  refine .list fun v hv => ?_
  obtain ⟨s, hs, rfl⟩ := List.mem_map.1 hv
  exact .str (h s hs)

/-! ### Reports -/

theorem made_metar (hP : Ascii P) {db : Database} (hdb : ∀ c, InTables db c → P c) {clock : Clock} {code : PyStr}
    {a : Args} {r : Metar} (hs : ∀ c ∈ code, P c) (h : Metar.new db clock code a = .ok r) {d : PyVal}
    (hd : r.dict db = .ok d) : Made P d := by
  obtain ⟨t0, time, asg, r1, -, e0, -, -, -, -, hR, hE, -, hun, hraw, hsec, -⟩ := Metar.new_reading h
  have hn := text_normalize hP hs
  have hsc := text_metarSections hP hn
  have hg := text_splitC (sep := 32) hP (text_windshear hP (text_visibility hP hsc.1))
  have hc := fun g i (h : (g, i) ∈ consumed (splitC 32 (Metar.bodyText (normalizeCode code))) asg) =>
    hg g (consumed_mem h)
  have htr : ∀ p ∈ r.weatherTrends.list, Made P p.dict.1 ∧ ∀ g ∈ p.unparsed, ∀ c ∈ g, P c := by
    intro p hp
    obtain ⟨t, ht, hnew⟩ := hE.right p hp
    refine made_trend hP ?_ hnew
    exact text_sentence hP hsc.2.1 (by decide +kernel) t (List.mem_filter.1 ht).1
  have hsections : ∀ s ∈ r.sections, ∀ c ∈ s, P c := by
    rw [hsec]
    simp only [Metar.start, List.forall_mem_cons, List.not_mem_nil, false_imp_iff, implies_true, and_true]
    exact hsc
  unfold Metar.dict at hd
  obtain ⟨rr, hrr, hd⟩ := bind_ok.1 hd
  obtain ⟨ws, hws, hd⟩ := bind_ok.1 hd
  obtain ⟨cs, hcs, hd⟩ := bind_ok.1 hd
  obtain ⟨wsh, hwsh, hd⟩ := bind_ok.1 hd
  obtain ⟨wt, hwt, hd⟩ := bind_ok.1 hd
  cases pure_ok.1 hd
  refine (Entries.update
    (entries [.str ?_, made_strings hsections, made_strings ?_, ?_, ?_, Entries.made ?_] for hP)
    (entries [Entries.made ?_, ?_, ?_, ?_, Entries.made ?_, ?_, ?_, ?_, ?_, ?_, ?_, ?_, ?_, ?_,
      made_text (text_rules hP _ _), ?_, .str ?_] for hP)).made
  · rw [hraw]; exact hn
  · rw [hun]
    intro s h
    rcases List.mem_append.1 h with h | h
    · exact hg s (leftover_mem h)
    · obtain ⟨p, hp, h⟩ := List.mem_flatMap.1 h
      exact (htr p hp).2 s h
  · exact made_single (Q := fun x : ReportType => Made P x.dict) hR.type hc (made_type hP (hP.lit rfl))
      fun m y hm hy => by cases hy; exact made_type hP hm
  · exact made_single (Q := fun x : Station => Made P (x.dict db)) hR.station hc (made_station_none hP db)
      fun m y hm hy => made_station hP hdb hm hy
  · exact made_single (Q := fun x : Time => Entries P x.dict) hR.time hc
      (made_time hP (by rw [show (Metar.start _ time).time = time from rfl, time_code e0]; exact .none))
      fun m y hm hy => made_fromMetar hP hm hy
  · exact made_single (Q := fun x : Modifier => Entries P x.dict) hR.modifier hc (made_modifier hP .none)
      fun m y hm hy => by cases hy; exact made_modifier hP (.some hm)
  · exact made_single (Q := fun w : MetarWind => Made P w.dict) hR.wind hc (made_wind_none hP) fun m y hm hy => made_wind hP hm hy
  · exact made_single (Q := fun x : WindVariation => Made P x.dict) hR.windVariation hc (made_variation_none hP)
      fun m y hm hy => made_variation hP hm hy
  · exact made_single (Q := fun v : Visibility => Made P v.dictPrev) hR.prevailing hc
      (made_prev hP .none .none .none) fun m y hm hy => made_prevailing hP hm hy
  · exact made_single (Q := fun v : Visibility => Entries P v.dictMin) hR.minimum hc
      (made_visibility_none hP) fun m y hm hy => made_minimum hP hm hy
  · refine made_labelled hP (fun x hx v hv => ?_) hrr
    cases hv
    exact made_all (Q := fun x : RunwayRange => Made P x.dict) hR.ranges.1 hc
      (fun m y hm hy => made_range hP hm hy) x hx
  · refine made_labelled hP (fun x hx v hv => ?_) hws
    cases hv
    exact made_all (Q := fun x : Weather => Made P x.dict) hR.weathers.1 hc
      (fun m y hm hy => by cases hy; exact made_weather hP hm) x hx
  · refine made_labelled hP (fun x hx v hv => ?_) hcs
    cases hv
    exact made_all (Q := fun x : Cloud => Made P x.dict) hR.clouds.1 hc
      (fun m y hm hy => made_cloud hP hm hy) x hx
  · exact made_single (Q := fun x : Temperatures => Made P x.dict) hR.temperatures hc (made_temperatures_none hP)
      fun m y hm hy => made_temperatures hP hm hy
  · exact made_last (Q := fun x : MetarPressure => Made P x.dict) hR.pressure (made_metarPressure_none hP)
      fun m y hy => made_metarPressure hP hy
  · exact made_single (Q := fun x : RecentWeather => Made P x.dict) hR.recent hc (made_recent_none hP)
      fun m y hm hy => by cases hy; exact made_recent hP hm
  · refine made_labelled hP (fun x hx v hv => ?_) hwsh
    cases hv
    exact made_all (Q := fun x : Windshear => Made P x.dict) hR.windshears.1 hc
      (fun m y hm hy => by cases hy; exact made_shear hP hm) x hx
  · exact made_single (Q := fun x : SeaState => Made P x.dict) hR.sea hc (made_sea_none hP)
      fun m y hm hy => made_sea hP hm hy
  · exact made_single (Q := fun x : RunwayState => Made P x.dict) hR.runwayState hc (made_runwayState_none hP)
      fun m y hm hy => by cases hy; exact made_runwayState hP hm
  · refine made_labelled hP (fun x hx v hv => ?_) hwt
    cases hv
    exact (htr x hx).1
  · unfold Metar.remark
    rw [hsec]
    exact hsc.2.2

theorem text_join {sep : PyStr} (hsep : ∀ c ∈ sep, P c) {l : List PyStr} (h : ∀ s ∈ l, ∀ c ∈ s, P c) :
    ∀ c ∈ join sep l, P c := by
  intro c hc
  rcases mem_join hc with hc | ⟨s, hs, hc⟩
  · exact hsep c hc
  · exact h s hs c hc

theorem made_taf (hP : Ascii P) {db : Database} (hdb : ∀ c, InTables db c → P c) {clock : Clock} {code : PyStr}
    {a : Args} {r : Taf} (hs : ∀ c ∈ code, P c) (h : Taf.new db clock code a = .ok r) {d : PyVal}
    (hd : r.dict db = .ok d) : Made P d := by
  obtain ⟨time, v, asg, r1, e0, e00, -, -, -, -, hR, -, hE, -, hun, hraw, hbody, hcodes⟩ := Taf.new_reading h
  have hn := text_normalize hP hs
  have hsc := text_tafSections hP hn
  have hg := text_splitC (sep := 32) hP (text_visibility hP hsc.1)
  have hc := fun g i (h : (g, i) ∈ consumed (splitC 32 (Taf.bodyText (normalizeCode code))) asg) =>
    hg g (consumed_mem h)
  have hch : ∀ p ∈ r.changes.list, Made P p.dict.1 ∧ ∀ g ∈ p.unparsed, ∀ c ∈ g, P c := by
    intro p hp
    obtain ⟨t, ht, p0, hnew, i, s, rfl, -⟩ := hE.right p hp
    obtain ⟨h1, h2, h3⟩ := made_change hP (hsc.2 t (List.mem_filter.1 ht).1) hnew
    exact ⟨made_forecast hP (.some h1) ⟨h2.1, h2.2, h2.3, h2.4⟩, h3⟩
  have hsections : ∀ s ∈ r.sections, ∀ c ∈ s, P c := by
    unfold Taf.sections
    rw [hbody, hcodes]
    simp only [List.forall_mem_cons, List.not_mem_nil, false_imp_iff, implies_true, and_true]
    refine ⟨hsc.1, text_join (hP.lit rfl) fun s h => ?_⟩
    obtain ⟨w, hw, rfl⟩ := List.mem_map.1 h
    exact text_replace hP (by decide) (hsc.2 w hw) rfl
  obtain ⟨ts, hts, hmax, hmin⟩ := hR.temperatures
  have htemp : ∀ x ∈ ts, Made P x.2.dict := by
    refine made_all hts hc fun m y hm hy => ?_
    unfold tafTagged at hy
    cases hx : TafTemperature.new m r.time.time with
    | error e => rw [hx] at hy; cases hy
    | ok x => rw [hx] at hy; cases hy; exact made_tafTemperature hP hm hx
  unfold Taf.dict at hd
  obtain ⟨ws, hws, hd⟩ := bind_ok.1 hd
  obtain ⟨cs, hcs, hd⟩ := bind_ok.1 hd
  obtain ⟨mx, hmx, hd⟩ := bind_ok.1 hd
  obtain ⟨mn, hmn, hd⟩ := bind_ok.1 hd
  obtain ⟨ch, hch', hd⟩ := bind_ok.1 hd
  cases pure_ok.1 hd
  refine (Entries.update
    (entries [.str ?_, made_strings hsections, made_strings ?_, ?_, ?_, Entries.made ?_] for hP)
    (entries [Entries.made ?_, ?_, ?_, ?_, ?_, ?_, ?_, ?_, ?_, ?_, ?_] for hP)).made
  · rw [hraw]; exact hn
  · rw [hun]
    intro s h
    rcases List.mem_append.1 h with h | h
    · exact hg s (leftover_mem h)
    · obtain ⟨p, hp, h⟩ := List.mem_flatMap.1 h
      exact (hch p hp).2 s h
  · exact made_single (Q := fun x : ReportType => Made P x.dict) hR.type hc (made_type hP (hP.lit rfl))
      fun m y hm hy => by cases hy; exact made_type hP hm
  · exact made_single (Q := fun x : Station => Made P (x.dict db)) hR.station hc (made_station_none hP db)
      fun m y hm hy => made_station hP hdb hm hy
  · exact made_single (Q := fun x : Time => Entries P x.dict) hR.time hc
      (made_time hP (by rw [show (Taf.start _ time v).time = time from rfl, time_code e0]; exact .none))
      fun m y hm hy => made_fromMetar hP hm hy
  · exact made_single (Q := fun x : Modifier => Entries P x.dict) hR.modifier hc (made_modifier hP .none)
      fun m y hm hy => by cases hy; exact made_modifier hP (.some hm)
  · exact made_single (Q := fun x : Missing => Made P x.dict) hR.missing hc (made_missing hP .none)
      fun m y hm hy => by cases hy; exact made_missing hP (.some hm)
  · exact made_single (Q := fun x : Valid => Made P x.dict) hR.valid hc
      (made_valid hP (o := none) (fun _ h => by cases h) e00)
      fun m y hm hy => made_valid hP (o := some m) (fun _ h => by cases h; exact hm) hy
  · exact made_single (Q := fun x : Cancelled => Made P x.dict) hR.cancelled hc
      (made_cancelled hP (o := none) (fun _ h => by cases h))
      fun m y hm hy => by cases hy; exact made_cancelled hP (o := some m) (fun _ h => by cases h; exact hm)
  · exact made_single (Q := fun w : MetarWind => Made P w.dict) hR.wind hc (made_wind_none hP)
      fun m y hm hy => made_wind hP hm hy
  · exact made_single (Q := fun v : Visibility => Made P v.dictPrev) hR.prevailing hc
      (made_prev hP .none .none .none) fun m y hm hy => made_prevailing hP hm hy
  · refine made_labelled hP (fun x hx v hv => ?_) hws
    cases hv
    exact made_all (Q := fun x : Weather => Made P x.dict) hR.weathers.1 hc
      (fun m y hm hy => by cases hy; exact made_weather hP hm) x hx
  · refine made_labelled hP (fun x hx v hv => ?_) hcs
    cases hv
    exact made_all (Q := fun x : Cloud => Made P x.dict) hR.clouds.1 hc
      (fun m y hm hy => made_cloud hP hm hy) x hx
  · refine made_labelled hP (fun x hx v hv => ?_) hmx
    cases hv
    rw [hmax] at hx
    obtain ⟨y, hy, rfl⟩ := List.mem_map.1 hx
    exact htemp y (List.mem_filter.1 hy).1
  · refine made_labelled hP (fun x hx v hv => ?_) hmn
    cases hv
    rw [hmin] at hx
    obtain ⟨y, hy, rfl⟩ := List.mem_map.1 hx
    exact htemp y (List.mem_filter.1 hy).1
  · refine made_labelled hP (fun x hx v hv => ?_) hch'
    cases hv
    exact (hch x hx).1

end Verif
