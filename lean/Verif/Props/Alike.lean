import Verif.Spec.Alike
import Verif.Props.Own
import Verif.Props.Time
import Verif.Lemmas.Wind
import Verif.Lemmas.Visibility
import Verif.Lemmas.TafApart

/-
C107: a group means the same in a METAR, in a trend, in a TAF and in a change.
-/

namespace Verif.Props
open Verif Verif.Spec

/-! ### Wind and visibility under both patterns -/

theorem wind_caps {r : RE} {dirs speeds : List (List CC)} (hx : r.exact (windForms dirs speeds) = true)
    (w : WindGroup) (h : w.WF) (h1 : ∃ d ∈ dirs, HasShape d w.dir.text)
    (h2 : ∃ s ∈ speeds, HasShape s w.speed.text) :
    ∃ m, r.match w.text = some m ∧ m.string = w.text ∧ m.group .dir = some w.dir.text ∧
      m.group .speed = some w.speed.text ∧
      m.group .gust = (w.gust.map fun _ => 4).map (fun i => ((WindGroup.pieces w)[i]?).getD []) ∧
      m.group .units = some (if w.mps then py!"MPS" else py!"KT") := by
  obtain ⟨d, hd, h1⟩ := h1
  obtain ⟨s, hs, h2⟩ := h2
  obtain ⟨f, hf, hsh, hc⟩ := windForms_mem hd hs w h.2.2 h1 h2
  obtain ⟨m, e1, e2, e3⟩ := RE.exact_match hx hf hsh
  rw [hc] at e3
  rw [WindGroup.pieces_flatten] at e1 e2
  exact ⟨m, e1, e2, e3 (.dir, some 0) (by simp), e3 (.speed, some 2) (by simp),
    e3 (.gust, w.gust.map fun _ => 4) (by simp), e3 (.units, some 5) (by simp)⟩

theorem wind_alike {g : PyStr} {m m' : Match} (hn : 10 ∉ g) (h : TafRegExp.WIND.match g = some m)
    (h' : MetarRegExp.WIND.match g = some m') : MetarWind.new m = MetarWind.new m' := by
  obtain ⟨w, hw, hf, rfl⟩ := tafWind_only h hn
  obtain ⟨m1, e1, e2, e3, e4, e5, e6⟩ := wind_caps tafWind_exact w hw (wind_shapes_taf w hw hf).1
    (wind_shapes_taf w hw hf).2
  obtain ⟨m2, f1, f2, f3, f4, f5, f6⟩ := wind_caps metarWind_exact w hw (wind_shapes w hw).1 (wind_shapes w hw).2
  rw [h] at e1
  rw [h'] at f1
  cases e1
  cases f1
  unfold MetarWind.new
  rw [e2, e3, e4, e5, e6, f2, f3, f4, f5, f6]

theorem tafVis_undef {d : Option PyStr} (h : (VisGroup.metres .undef d).WF) :
    TafRegExp.VISIBILITY.match (VisGroup.metres .undef d).text = none := by
  obtain ⟨f, hf, h1, -⟩ := metresForms_mem (vs := [litShape py!"////"]) (extra := []) .undef d h
    (k := litShape py!"////") (by simp) (hasShape_lit _)
  have hs := h1.flatten
  rw [VisGroup.pieces_flatten] at hs
  have key : ((metresForms [litShape py!"////"] []).all fun f => tafVisStarts.all (disjPre f.1.flatten)) = true := by
    decide +kernel
  exact tafVis_none (List.all_eq_true.1 key f hf) hs

theorem vis_caps {r : RE} {vs : List (List CC)}
    (hx : ∀ f ∈ metresForms vs noRange ++ rangeForms ++ [cavokForm], ∀ ts, Shapes f.1 ts →
      ∃ m, r.match ts.flatten = some m ∧ m.string = ts.flatten ∧
        ∀ co ∈ f.2, m.group co.1 = co.2.map fun i => (ts[i]?).getD [])
    (w : VisGroup) (h : w.WF) (hv : ∀ v d, w = .metres v d → ∃ k ∈ vs, HasShape k v.text) :
    ∃ m, r.match w.text = some m ∧ m.string = w.text ∧ ∀ c ∈ visCaps, m.group c = VisGroup.cap w c := by
  obtain ⟨f, hf, hs, hc⟩ := allForms_mem w h hv
  obtain ⟨m, e1, e2, e3⟩ := hx f hf _ hs
  rw [VisGroup.pieces_flatten] at e1 e2
  exact ⟨m, e1, e2, hc.apply e3⟩

theorem vis_alike {g : PyStr} {m m' : Match} (hn : 10 ∉ g) (h : TafRegExp.VISIBILITY.match g = some m)
    (h' : MetarRegExp.VISIBILITY.match g = some m') : prevailing m = prevailing m' := by
  obtain ⟨w, hw, rfl⟩ := metarVis_only h' hn
  have hu : ∀ d, w ≠ .metres .undef d := by
    rintro d rfl
    rw [tafVis_undef hw] at h
    cases h
  obtain ⟨m1, e1, e2, e3⟩ := vis_caps (fun f hf ts hs => RE.begins_match tafVis_begins hf hs) w hw
    (by
      rintro v d rfl
      cases v with
      | digits ds => exact ⟨_, by simp, hasShape_digits hw.1.2 hw.1.1⟩
      | undef => exact absurd rfl (hu d))
  obtain ⟨m2, f1, f2, f3⟩ := vis_caps (fun f hf ts hs => RE.exact_match vis_exact hf hs) w hw
    (by
      rintro v d rfl
      obtain ⟨k, hk, hs, -⟩ := Metres.shape v hw.1
      exact ⟨k, hk, hs⟩)
  rw [h] at e1
  rw [h'] at f1
  cases e1
  cases f1
  have hc : ∀ c ∈ visCaps, m.group c = m'.group c := fun c hc => (e3 c hc).trans (f3 c hc).symm
  unfold prevailing
  rw [hc .vis (by decide), hc .dir (by decide), hc .integer (by decide), hc .fraction (by decide),
    hc .units (by decide), hc .cavok (by decide), e2, f2]

/-! ### Parts -/

/-- An attribute read from at most one of the groups, by one of two patterns. -/
def ReadFrom {α : Type} (re re' : RE) (f : Match → Except Exc α) (d : α) (gs : List PyStr) (x : α) : Prop :=
  (∃ g m, g ∈ gs ∧ (∀ g' ∈ gs, g' = g) ∧ 10 ∉ g ∧ (re.match g = some m ∨ re'.match g = some m) ∧ f m = .ok x) ∨
    (gs = [] ∧ x = d)

theorem readFrom {α : Type} {c : List (PyStr × Nat)} (ho : Ordered c) (hn : ∀ g i, (g, i) ∈ c → 10 ∉ g) {i : Nat}
    {re re' re0 : RE} (hre : re0 = re ∨ re0 = re') {f : Match → Except Exc α} {d x : α}
    (h : FromGroup c i re0 f d x) : ReadFrom re re' f d (taken c i i) x := by
  rcases h with ⟨g, m, hg, hm, hx⟩ | ⟨hno, hx⟩
  · refine .inl ⟨g, m, mem_taken.1 hg, ?_, hn g i hg, ?_, hx⟩
    · intro g' hg'
      exact ordered_inj ho (mem_taken.2 hg') hg
    · rcases hre with rfl | rfl
      · exact .inl hm
      · exact .inr hm
  · refine .inr ⟨?_, hx⟩
    refine List.eq_nil_iff_forall_not_mem.2 fun g hg => hno g (mem_taken.2 hg)

theorem ReadFrom.same {α : Type} {re re' : RE} {f : Match → Except Exc α}
    (hre : ∀ g m m', 10 ∉ g → re.match g = some m → re'.match g = some m' → f m = f m') {d : α} {gs : List PyStr}
    {x x' : α} (h : ReadFrom re re' f d gs x) (h' : ReadFrom re re' f d gs x') : x = x' := by
  rcases h with ⟨g, m, hg, hu, hn, hm, hx⟩ | ⟨e, hx⟩ <;> rcases h' with ⟨g', m', hg', hu', hn', hm', hx'⟩ | ⟨e', hx'⟩
  · obtain rfl := hu g' hg'
    have : f m = f m' := by
      rcases hm with hm | hm <;> rcases hm' with hm' | hm'
      · rw [hm] at hm'; cases hm'; rfl
      · exact hre _ _ _ hn hm hm'
      · exact (hre _ _ _ hn hm' hm).symm
      · rw [hm] at hm'; cases hm'; rfl
    rw [hx, hx'] at this
    cases this
    rfl
  · subst e'; cases hg
  · subst e; cases hg'
  · rw [hx, hx']

structure PartRead (f : Core) (ws vs xs cs : List PyStr) : Prop where
  wind : ReadFrom TafRegExp.WIND MetarRegExp.WIND MetarWind.new ({} : Core).wind ws f.wind
  visibility : ReadFrom TafRegExp.VISIBILITY MetarRegExp.VISIBILITY prevailing ({} : Core).prevailing vs f.prevailing
  weathers : Each (fun g w => ∃ m, MetarRegExp.WEATHER.match g = some m ∧ Except.ok (ε := Exc) (Weather.new m) = .ok w) xs
    f.weathers.list
  clouds : Each (fun g w => ∃ m, MetarRegExp.CLOUD.match g = some m ∧ Cloud.fromMetar m = .ok w) cs f.clouds.list
  cursor : f.clouds.n = 0

theorem part_read {f : Core} {ws vs xs cs : List PyStr} (h : ForecastPart f ws vs xs cs) : PartRead f ws vs xs cs := by
  cases h with
  | metar h hf hc =>
    obtain ⟨t, -, ho, e, hn⟩ := Metar.new_decodes h hc
    subst hf
    exact ⟨readFrom ho hn (.inr rfl) e.wind, readFrom ho hn (.inr rfl) e.prevailing, e.weathers.1, e.clouds.1,
      e.clouds.2⟩
  | trend h hp ht hf hc =>
    obtain ⟨ind, p1, -, ho, -, -, e, -, hn⟩ := Metar.trend_decodes h hp ht hc
    subst hf
    exact ⟨readFrom ho hn (.inr rfl) e.wind, readFrom ho hn (.inr rfl) e.prevailing, e.weathers.1, e.clouds.1,
      e.clouds.2⟩
  | taf h hf hc =>
    obtain ⟨t, v, -, -, ho, e, hn⟩ := Taf.new_decodes h hc
    subst hf
    exact ⟨readFrom ho hn (.inl rfl) e.wind, readFrom ho hn (.inl rfl) e.prevailing, e.weathers.1, e.clouds.1,
      e.clouds.2⟩
  | change h hx hf hc =>
    obtain ⟨p1, ho, -, -, e, -, hn⟩ := Taf.change_decodes h hx hc
    subst hf
    exact ⟨readFrom ho hn (.inl rfl) e.wind, readFrom ho hn (.inr rfl) e.prevailing, e.weathers.1, e.clouds.1,
      e.clouds.2⟩

/-- C107. A group means the same wherever it stands. If two of a METAR, a trend of a METAR, a TAF and a change of
a TAF, of any reports, have the same groups for wind, or for visibility, weather or clouds, the winds are equal, or the
visibilities, the weather or the clouds. -/
theorem C107_forecast (f f' : Core) (ws vs xs cs ws' vs' xs' cs' : List PyStr) (h : ForecastPart f ws vs xs cs)
    (h' : ForecastPart f' ws' vs' xs' cs') :
    (ws = ws' → f.wind = f'.wind) ∧ (vs = vs' → f.prevailing = f'.prevailing) ∧
    (xs = xs' → f.weathers.list = f'.weathers.list) ∧ (cs = cs' → f.clouds.list = f'.clouds.list) := by
  have e := part_read h
  have e' := part_read h'
  refine ⟨?_, ?_, ?_, ?_⟩
  · rintro rfl
    exact e.wind.same (fun g m m' hn h1 h2 => wind_alike hn h1 h2) e'.wind
  · rintro rfl
    exact e.visibility.same (fun g m m' hn h1 h2 => vis_alike hn h1 h2) e'.visibility
  · rintro rfl
    exact each_same e.weathers e'.weathers
  · rintro rfl
    exact each_same e.clouds e'.clouds

/-- C107. Flight rules and `should_be_cavok` of two parts with the same groups for visibility, weather and clouds. -/
theorem C107_derived (f f' : Core) (ws vs xs cs ws' xs' : List PyStr) (h : ForecastPart f ws vs xs cs)
    (h' : ForecastPart f' ws' vs xs' cs) :
    f.flightRules = f'.flightRules ∧
    (xs = xs' → ∀ same, (f.shouldBeCavok same).1 = (f'.shouldBeCavok same).1) := by
  obtain ⟨-, k2, k3, k4⟩ := C107_forecast f f' _ _ _ _ _ _ _ _ h h'
  have hp := k2 rfl
  have hl := k4 rfl
  refine ⟨by unfold Core.flightRules; rw [hp, hl], ?_⟩
  intro hx same
  have hw := k3 hx
  have hn : f.clouds.n = f'.clouds.n := (part_read h).cursor.trans (part_read h').cursor.symm
  have hgo := cavokGo_same same (f.clouds.list.length + 1) _ _ hl hn
  unfold Core.shouldBeCavok
  rw [← hw, ← hp, ← hl]
  repeat' split
  all_goals first | rfl | exact congrArg Except.ok hgo | simp_all

/-! ### Which groups are taken -/

theorem digits_slash {ds : PyStr} (h : ∀ c ∈ ds, isDigit c = true) : 47 ∉ ds := fun hc => by
  have := h 47 hc
  revert this
  decide

theorem forecast_slash {w : WindGroup} (h : w.WF) : w.Forecast ↔ 47 ∉ w.text := by
  obtain ⟨dir, above, speed, gust, mps⟩ := w
  have hgust : 47 ∉ gustText gust := by
    cases gust with
    | none => decide
    | some x =>
      obtain ⟨p, ds⟩ := x
      have := digits_slash (h.2.2 p ds rfl).2
      cases p <;> simp [gustText, flagText, this]
  have hu : 47 ∉ (if mps then py!"MPS" else py!"KT") := by cases mps <;> decide
  have ha : 47 ∉ flagText above py!"P" := by cases above <;> decide
  have hd : 47 ∉ dir.text ↔ dir ≠ .undef := by
    cases dir with
    | tens n => simp [WindDir.text, digits_slash (padNat_digits 3 (10 * n))]
    | undef => simp [WindDir.text]
    | vrb => simp [WindDir.text]
  have hs : 47 ∉ speed.text ↔ speed ≠ .undef2 ∧ speed ≠ .undef3 := by
    cases speed with
    | digits ds => simp [WindSpeed.text, digits_slash h.2.1.2]
    | undef2 => simp [WindSpeed.text]
    | undef3 => simp [WindSpeed.text]
  unfold WindGroup.Forecast WindGroup.text
  simp only [List.mem_append, not_or, hd, hs, ha, hgust, hu, not_false_eq_true, and_true]

/-- C107. A TAF and a change take as wind the wind groups of a METAR without a solidus. -/
theorem C107_wind_groups (g : PyStr) (hn : 10 ∉ g) :
    (TafRegExp.WIND.match g).isSome ↔ (MetarRegExp.WIND.match g).isSome ∧ 47 ∉ g := by
  simp only [Option.isSome_iff_exists]
  constructor
  · rintro ⟨m, hm⟩
    obtain ⟨w, hw, hf, rfl⟩ := tafWind_only hm hn
    obtain ⟨m', -, h, -⟩ := metarWind_accept w hw
    exact ⟨⟨m', h⟩, (forecast_slash hw).1 hf⟩
  · rintro ⟨⟨m, hm⟩, hs⟩
    obtain ⟨w, hw, rfl⟩ := metarWind_only hm hn
    obtain ⟨m', -, h, -⟩ := tafWind_accept w hw ((forecast_slash hw).2 hs)
    exact ⟨m', h⟩

/-- C107. The body of a TAF takes as visibility the visibility groups of a METAR but those of four solidi; a change
takes them all, since it uses the pattern of a METAR. -/
theorem C107_visibility_groups (g : PyStr) (hn : 10 ∉ g) (hm : (MetarRegExp.VISIBILITY.match g).isSome) :
    (TafRegExp.VISIBILITY.match g).isSome ↔ ¬ py!"////" <+: g := by
  obtain ⟨m, hm⟩ := Option.isSome_iff_exists.1 hm
  obtain ⟨w, hw, rfl⟩ := metarVis_only hm hn
  have key : (tafVisForms.all fun f => disjPre f.1.flatten (litShape py!"////")) = true := by decide +kernel
  constructor
  · intro h hp
    obtain ⟨m', h⟩ := Option.isSome_iff_exists.1 h
    have hu : ∀ d, w ≠ .metres .undef d := by
      rintro d rfl
      rw [tafVis_undef hw] at h
      cases h
    obtain ⟨f, hf, hs, -⟩ := allForms_mem (vs := [List.replicate 4 .digit]) w hw
      (by
        rintro v d rfl
        cases v with
        | digits ds => exact ⟨_, by simp, hasShape_digits hw.1.2 hw.1.1⟩
        | undef => exact absurd rfl (hu d))
    have hs := hs.flatten
    rw [VisGroup.pieces_flatten] at hs
    obtain ⟨t, ht⟩ := hp
    rw [← ht] at hs
    exact disjPre_sound (List.all_eq_true.1 key f hf) hs (hasShape_lit _)
  · intro hp
    have hu : ∀ d, w ≠ .metres .undef d := by
      rintro d rfl
      exact hp ⟨d.getD [], rfl⟩
    obtain ⟨m', h, -⟩ := tafVis_match w hw hu
    rw [h]
    rfl

/-! ### METAR and TAF -/

/-- C107. Station, type and modifier of a METAR and of a TAF with the same groups for them; the time as well when the
same year and month are in use. -/
theorem C107_header (db : Database) (clock clock' : Clock) (code code' : PyStr) (a a' : Args) (r : Metar) (r' : Taf)
    (h : Metar.new db clock code a = .ok r) (h' : Taf.new db clock' code' a' = .ok r') (c c' : List (PyStr × Nat))
    (hc : Decodes (Metar.handlers db (clock 2) a) (metarGroups r.body) c)
    (hc' : Decodes (Taf.handlers db (clock' 1) a') (bodyGroups r'.body) c') :
    (taken c 0 0 = taken c' 0 0 → taken c 0 0 ≠ [] → r.type = r'.type) ∧
    (taken c 1 1 = taken c' 2 2 → r.station = r'.station) ∧
    (taken c 3 3 = taken c' 1 1 → r.modifier = r'.modifier) ∧
    (taken c 2 2 = taken c' 3 3 → taken c 2 2 ≠ [] → a.year.getD (clock 2).year = a'.year.getD (clock' 1).year →
      a.month.getD (clock 2).month = a'.month.getD (clock' 1).month → r.time = r'.time) := by
  obtain ⟨t, -, ho, e, hn⟩ := Metar.new_decodes h hc
  obtain ⟨t', v, -, -, ho', e', hn'⟩ := Taf.new_decodes h' hc'
  have e3 := readFrom (re := MetarRegExp.MODIFIER) (re' := TafRegExp.AMD_COR) ho hn (.inl rfl) e.modifier
  have e3' := readFrom (re := MetarRegExp.MODIFIER) (re' := TafRegExp.AMD_COR) ho' hn' (.inr rfl) e'.modifier
  refine ⟨?_, ?_, ?_, ?_⟩
  · intro hs hne
    rcases e.type with ⟨g, m, hg, hm, hx⟩ | ⟨hno, -⟩
    · rcases e'.type with ⟨g', m', hg', hm', hx'⟩ | ⟨hno, -⟩
      · have := ordered_inj ho hg (mem_taken.2 (hs ▸ mem_taken.1 hg'))
        subst this
        rw [hm] at hm'
        cases hm'
        exact Except.ok.inj (hx.symm.trans hx')
      · exact absurd (mem_taken.2 (hs ▸ mem_taken.1 hg)) (hno g)
    · exact absurd (List.eq_nil_iff_forall_not_mem.2 fun g hg => hno g (mem_taken.2 hg)) hne
  · intro hs
    have k := readFrom (re := MetarRegExp.STATION) (re' := MetarRegExp.STATION) ho hn (.inl rfl) e.station
    have k' := readFrom (re := MetarRegExp.STATION) (re' := MetarRegExp.STATION) ho' hn' (.inl rfl) e'.station
    rw [← hs] at k'
    refine k.same (fun g m m' _ h1 h2 => ?_) k'
    rw [h1] at h2
    cases h2
    rfl
  · intro hs
    rw [← hs] at e3'
    refine e3.same (fun g m m' _ h1 h2 => ?_) e3'
    rw [RE.match_string h1, RE.match_string h2]
  · intro hs hne hy hmo
    rcases e.time with ⟨g, m, hg, hm, hx⟩ | ⟨hno, -⟩
    · rcases e'.time with ⟨g', m', hg', hm', hx'⟩ | ⟨hno, -⟩
      · have := ordered_inj ho hg (mem_taken.2 (hs ▸ mem_taken.1 hg'))
        subst this
        rw [hm] at hm'
        cases hm'
        have : Time.fromMetar (clock 2) (some m) a.year a.month = Time.fromMetar (clock' 1) (some m) a'.year a'.month := by
          unfold Time.fromMetar Time.new
          simp only
          rw [hy, hmo]
        exact Except.ok.inj (hx.symm.trans (this.trans hx'))
      · exact absurd (mem_taken.2 (hs ▸ mem_taken.1 hg)) (hno g)
    · exact absurd (List.eq_nil_iff_forall_not_mem.2 fun g hg => hno g (mem_taken.2 hg)) hne

/-! ### Instances -/

/-- The winds and visibilities of a METAR and of its trends. -/
def metarWinds (code : PyStr) : List (MetarWind × Visibility) :=
  ((metarOk sampleClock code).map fun r =>
    (r.core.wind, r.core.prevailing) :: r.weatherTrends.list.map fun p => (p.core.wind, p.core.prevailing)).getD []

def tafWinds (code : PyStr) : List (MetarWind × Visibility) :=
  ((tafOk sampleClock code).map fun r =>
    (r.core.wind, r.core.prevailing) :: r.changes.list.map fun p => (p.core.wind, p.core.prevailing)).getD []

/-- One wind and one visibility in the four parts. -/
example :
    (metarWinds py!"METAR SCEL 101130Z 18004G15MPS 3/4SM TEMPO 18004G15MPS 3/4SM" ++
      tafWinds py!"TAF SCEL 101130Z 1012/1112 18004G15MPS 3/4SM TEMPO 1012/1014 18004G15MPS 3/4SM").length = 4 ∧
    ∀ x ∈ metarWinds py!"METAR SCEL 101130Z 18004G15MPS 3/4SM TEMPO 18004G15MPS 3/4SM" ++
      tafWinds py!"TAF SCEL 101130Z 1012/1112 18004G15MPS 3/4SM TEMPO 1012/1014 18004G15MPS 3/4SM",
      ∀ y ∈ metarWinds py!"METAR SCEL 101130Z 18004G15MPS 3/4SM", x = y ∧ x.1.gust.isSome ∧ x.2.vis.isSome := by
  decide +kernel

/-- The parts of a TAF do not take the same groups. A wind with solidi is taken by a trend, not by a change; and what
the body of a TAF takes as visibility because of its beginning, a change of that TAF leaves. -/
theorem C107_parts_differ :
    (metarOk sampleClock py!"METAR SCEL 101130Z TEMPO /////KT").map (·.unparsed) = some [] ∧
    (tafOk sampleClock py!"TAF SCEL 101130Z 1012/1112 TEMPO 1012/1014 /////KT").map (·.unparsed) = some [py!"/////KT"] ∧
    (tafOk sampleClock py!"TAF SCEL 101130Z 1012/1112 3000X").map (·.unparsed) = some [] ∧
    (tafOk sampleClock py!"TAF SCEL 101130Z 1012/1112 TEMPO 1012/1014 3000X").map (·.unparsed) = some [py!"3000X"] ∧
    (tafOk sampleClock py!"TAF SCEL 101130Z 1012/1112 ////").map (·.core.prevailing.code) = some none ∧
    (tafOk sampleClock py!"TAF SCEL 101130Z 1012/1112 TEMPO 1012/1014 ////").map
      (fun r => r.changes.list.map (·.core.prevailing.code)) = some [some py!"////"] := by
  decide +kernel

end Verif.Props
