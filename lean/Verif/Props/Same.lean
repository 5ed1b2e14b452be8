import Verif.Lemmas.Same
import Verif.Props.Compare
import Verif.Props.Weather

/-
Groups whose decoded values are equal state the same (C112).
-/

namespace Verif.Props
open Verif Verif.Spec

/-! ### C112 -/

theorem windDir_bound {w : WindGroup} (hw : w.WF) : ∀ k, w.dir.degrees = some k → k ≤ 360 := by
  intro k hk
  have h := hw.1
  cases e : w.dir with
  | tens n =>
    rw [e] at hk h
    simp only [WindDir.degrees, Option.some.injEq] at hk
    simp only [WindDir.WF] at h
    omega
  | undef => rw [e] at hk; cases hk
  | vrb => rw [e] at hk; cases hk

/-- C112, wind: agreeing in one unit of the direction, of the speed or of the gusts means that the same
direction, speed or gust is stated; in the same unit, by the same number. -/
theorem C112_wind (w w' : WindGroup) (hw : w.WF) (hw' : w'.WF) (x x' : MetarWind) (h : WindUnits w x)
    (h' : WindUnits w' x') :
    TellsIn windDirections (statedDegrees w.dir.degrees) (statedDegrees w'.dir.degrees) x x' ∧
    TellsIn windSpeeds (statedMps w.mps w.speed.number) (statedMps w'.mps w'.speed.number) x x' ∧
    TellsIn windGusts (statedMps w.mps w.gustNumber) (statedMps w'.mps w'.gustNumber) x x' ∧
    (w.mps = w'.mps → ∀ u ∈ windSpeeds, SameNumber (u x) (u x') → w.speed.number = w'.speed.number) ∧
    (w.mps = w'.mps → ∀ u ∈ windGusts, SameNumber (u x) (u x') → w.gustNumber = w'.gustNumber) ∧
    (SameNumber x.directionInDegrees x'.directionInDegrees → x.variable_ = x'.variable_ → w.dir = w'.dir) := by
  have a := C103_wind w w' hw hw' x x' h h'
  have b := C103_wind w' w hw' hw x' x h' h
  have t1 := angle_tells (α := MetarWind) h.1 h'.1 (windDir_bound hw) (windDir_bound hw')
  have t2 : TellsIn windSpeeds (statedMps w.mps w.speed.number) (statedMps w'.mps w'.speed.number) x x' :=
    tells_of a.1 b.1 fun u hu => ⟨speed_none h.2.1 u hu, speed_none h'.2.1 u hu⟩
  have t3 : TellsIn windGusts (statedMps w.mps w.gustNumber) (statedMps w'.mps w'.gustNumber) x x' :=
    tells_of a.2 b.2 fun u hu => ⟨speed_none h.2.2.1 u hu, speed_none h'.2.2.1 u hu⟩
  refine ⟨t1, t2, t3, fun e u hu hs => ?_, fun e u hu hs => ?_, fun hs hv => ?_⟩
  · have := t2 u hu hs
    rw [e] at this
    exact statedMps_inj this
  · have := t3 u hu hs
    rw [e] at this
    exact statedMps_inj this
  · have hd := statedDegrees_inj (t1 MetarWind.directionInDegrees (by simp) hs)
    have v := h.2.2.2
    have v' := h'.2.2.2
    rw [hv] at v
    have vv : w.dir = .vrb ↔ w'.dir = .vrb := v.symm.trans v'
    generalize w.dir = d at *
    generalize w'.dir = d' at *
    cases d <;> cases d' <;> simp_all [WindDir.degrees]
    omega

/-- C112, the two directions of a wind variation determine the group. -/
theorem C112_variation (w w' : VariationGroup) (hw : w.WF) (hw' : w'.WF) (x x' : WindVariation)
    (h : VariationUnits w x) (h' : VariationUnits w' x') :
    ∀ u ∈ variationsFrom, ∀ v ∈ variationsTo, SameNumber (u x) (u x') → SameNumber (v x) (v x') → w = w' := by
  intro u hu v hv e1 e2
  obtain ⟨-, b1, -, b2⟩ := hw
  obtain ⟨-, b1', -, b2'⟩ := hw'
  have t1 := statedDegrees_inj (angle_tells (α := WindVariation) h.1 h'.1 (fun k e => by cases e; omega)
    (fun k e => by cases e; omega) u hu e1)
  have t2 := statedDegrees_inj (angle_tells (α := WindVariation) h.2 h'.2 (fun k e => by cases e; omega)
    (fun k e => by cases e; omega) v hv e2)
  cases w; cases w'
  simp only [Option.some.injEq, VariationGroup.mk.injEq] at *
  omega

/-- C112, visibilities, in whatever units they are written. -/
theorem C112_visibility (w w' : VisGroup) (hw : w.WF) (hw' : w'.WF) (x x' : Visibility) (h : VisUnits w x)
    (h' : VisUnits w' x') : TellsIn visibilities w.metresStated w'.metresStated x x' :=
  tells_of (C103_visibility w w' hw hw' x x' h h') (C103_visibility w' w hw' hw x' x h' h) fun u hu =>
    ⟨length_none h.1 u hu, length_none h'.1 u hu⟩

/-- C112, the ends of a runway visual range. -/
theorem C112_range (g g' : RangeGroup) (hg : g.WF) (hg' : g'.WF) (x x' : RunwayRange) (h : RangeUnits g x)
    (h' : RangeUnits g' x') :
    TellsIn lowRanges (some (g.low.metres g.feet)) (some (g'.low.metres g'.feet)) x x' ∧
    TellsIn highRanges (g.high.map (·.metres g.feet)) (g'.high.map (·.metres g'.feet)) x x' :=
  have a := C103_range g g' hg hg' x x' h h'
  have b := C103_range g' g hg' hg x' x h' h
  ⟨tells_of a.1 b.1 fun u hu => ⟨length_none h.1 u hu, length_none h'.1 u hu⟩,
   tells_of a.2 b.2 fun u hu => ⟨length_none h.2 u hu, length_none h'.2 u hu⟩⟩

theorem temps_tell {α : Type} {c k f r : α → Option F64} {b b' : Bool} {n n' : Option Nat} {x x' : α}
    (h : TempUnits (statedCelsius b n) (c x) (k x) (f x) (r x))
    (h' : TempUnits (statedCelsius b' n') (c x') (k x') (f x') (r x')) :
    TellsIn [c, k, f, r] (statedCelsius b n) (statedCelsius b' n') x x' :=
  tells_of (temps_below h h') (temps_below h' h) fun u hu => ⟨temp_none h u hu, temp_none h' u hu⟩

theorem celsius_same {q q' : Option Rat} {c k f r c' k' f' r' : Option F64} (h : TempUnits q c k f r)
    (h' : TempUnits q' c' k' f' r') (e : q = q') : SameNumber c c' := by
  subst e
  have a := h.c
  have b := h'.c
  cases q with
  | none => simp only [Near] at a b; rw [a, b]; rfl
  | some q =>
    obtain ⟨y, rfl, h1, h2⟩ := a
    obtain ⟨y', rfl, h3, h4⟩ := b
    simp only [SameNumber, Option.map_some, Option.some.injEq]
    grind

/-- C112, temperatures and dew points: agreeing in one scale means that the same temperature is stated,
and stating the same means agreeing in Celsius. -/
theorem C112_temperatures (g g' : TempGroup) (x x' : Temperatures) (h : TemperaturesUnits g x)
    (h' : TemperaturesUnits g' x') :
    TellsIn airTemperatures g.air.celsius g'.air.celsius x x' ∧
    TellsIn dewpoints g.dew.celsius g'.dew.celsius x x' ∧
    (g.air.celsius = g'.air.celsius → SameNumber x.temperatureInCelsius x'.temperatureInCelsius) ∧
    (g.dew.celsius = g'.dew.celsius → SameNumber x.dewpointInCelsius x'.dewpointInCelsius) :=
  ⟨temps_tell h.1 h'.1, temps_tell h.2 h'.2, celsius_same h.1 h'.1, celsius_same h.2 h'.2⟩

/-- C112, maximum and minimum temperatures of a TAF. -/
theorem C112_taf_temperatures (w w' : TafTempGroup) (x x' : TafTemperature) (h : TafTempUnits w x)
    (h' : TafTempUnits w' x') :
    TellsIn tafTemperatures (statedCelsius w.minus (some (digitsVal w.digits)))
      (statedCelsius w'.minus (some (digitsVal w'.digits))) x x' :=
  temps_tell h h'

/-- C112, temperature of the sea and height of the waves. -/
theorem C112_sea (g g' : SeaGroup) (hg : g.value.WF) (hg' : g'.value.WF) (x x' : SeaState) (h : SeaUnits g x)
    (h' : SeaUnits g' x') :
    TellsIn seaTemperatures (statedCelsius g.minus (some (digitsVal g.temp)))
      (statedCelsius g'.minus (some (digitsVal g'.temp))) x x' ∧
    TellsIn waveHeights g.value.statedMetres g'.value.statedMetres x x' := by
  refine ⟨temps_tell h.temperature h'.temperature,
    tells_of (C103_sea g g' hg hg' x x' h h').2 (C103_sea g' g hg' hg x' x h' h).2 ?_⟩
  have miss : ∀ {g : SeaGroup} {x : SeaState}, SeaUnits g x → ∀ u ∈ waveHeights,
      (u x = none ↔ g.value.statedMetres = none) := by
    intro g x h u hu
    simp only [waveHeights, List.mem_cons, List.not_mem_nil, or_false] at hu
    rcases hu with rfl | rfl | rfl | rfl | rfl
    · exact gives_missing h.m
    · exact gives_map_none h.dm
    · exact gives_map_none h.cm
    · exact gives_map_none h.ft
    · exact gives_map_none h.inches
  exact fun u hu => ⟨miss h u hu, miss h' u hu⟩

/-- C112, pressures: agreeing in one unit means that the stated pressures are missing in both groups or
less than a tenth of a hectopascal apart; groups in the same unit have the same digits. -/
theorem C112_pressure (g g' : PressGroup) (hg : g.WF) (hg' : g'.WF) (x x' : MetarPressure)
    (h : PressUnits g x) (h' : PressUnits g' x') (u : MetarPressure → Option F64) (hu : u ∈ pressures)
    (hs : SameNumber (u x) (u x')) :
    (g.statedHPa = none ↔ g'.statedHPa = none) ∧
    (∀ q q', g.statedHPa = some q → g'.statedHPa = some q' → q - q' < 1 / 10 ∧ q' - q < 1 / 10) ∧
    ((g.letters = some .A ∨ g.ins = true ↔ g'.letters = some .A ∨ g'.ins = true) →
      g.number.map digitsVal = g'.number.map digitsVal) := by
  have miss : ∀ {g : PressGroup} {x : MetarPressure}, PressUnits g x → ∀ u ∈ pressures,
      (u x = none ↔ g.statedHPa = none) := by
    intro g x h u hu
    simp only [pressures, List.mem_cons, List.not_mem_nil, or_false] at hu
    rcases hu with rfl | rfl | rfl | rfl | rfl
    · exact gives_missing h.hPa
    · exact gives_map_none h.inHg
    · exact gives_missing h.mbar
    · exact gives_map_none h.bar
    · exact gives_map_none h.atm
  have n : g.statedHPa = none ↔ g'.statedHPa = none :=
    (miss h u hu).symm.trans (hs.missing.trans (miss h' u hu))
  have close : ∀ q q', g.statedHPa = some q → g'.statedHPa = some q' → q - q' < 1 / 10 ∧ q' - q < 1 / 10 := by
    intro q q' e e'
    constructor
    · refine Rat.not_le.1 fun hle => ?_
      exact (C103_pressure g' g hg' hg x' x h' h ⟨q', q, e', e, by grind⟩ u hu).not_same hs.symm
    · refine Rat.not_le.1 fun hle => ?_
      exact (C103_pressure g g' hg hg' x x' h h' ⟨q, q', e, e', by grind⟩ u hu).not_same hs
  refine ⟨n, close, fun hi => ?_⟩
  unfold PressGroup.statedHPa at n close
  match e : g.number, e' : g'.number with
  | none, none => rfl
  | none, some _ => rw [e, e'] at n; simp at n
  | some _, none => rw [e, e'] at n; simp at n
  | some ds, some ds' =>
    rw [e, e'] at close
    simp only [Option.map_some, Option.some.injEq, hi] at close ⊢
    have close := close _ _ rfl rfl
    have lt : ∀ a b : Nat, a < b → (a : Rat) + 1 ≤ b := fun a b h => by exact_mod_cast h
    have hz : (1 : Rat) / 10 ≤ inchOfMercury / 100 := by decide +kernel
    have hz0 : (0 : Rat) ≤ inchOfMercury := by decide +kernel
    have key : ∀ a b : Nat, a < b → ¬ ((if g'.letters = some .A ∨ g'.ins = true then
        (b : Rat) / 100 * inchOfMercury else b) - (if g'.letters = some .A ∨ g'.ins = true then
        (a : Rat) / 100 * inchOfMercury else a) < 1 / 10) := by
      intro a b hab
      have := lt a b hab
      generalize inchOfMercury = z at hz hz0
      split
      · have := Rat.mul_le_mul_of_nonneg_right this hz0
        grind
      · grind
    rcases Nat.lt_trichotomy (digitsVal ds) (digitsVal ds') with hlt | heq | hlt
    · exact absurd close.2 (key _ _ hlt)
    · exact heq
    · exact absurd close.1 (key _ _ hlt)

theorem alike_iff (a b : Cover) : a.Alike b ↔ a.words = b.words ∧ some a.eighths = some b.eighths := by
  cases a <;> cases b <;> decide

theorem kind_alike (a b : Kind) : a.words = b.words ↔ a.stated = b.stated := by
  cases a <;> cases b <;> decide

/-- C112, clouds: agreeing in cover, eighths, type and in one unit of the height means that the layers are
alike: the same cover up to the ways to write that there is none, the same type and the same height. -/
theorem C112_cloud (l l' : Layer) (hl : l.WF) (hl' : l'.WF) (x x' : Cloud) (h : cloudInUnits.Says l x)
    (h' : cloudInUnits.Says l' x') :
    TellsIn cloudHeights l.metres l'.metres x x' ∧
    (∀ u ∈ cloudHeights, SameNumber (u x) (u x') → l.base.hundredsOfFeet = l'.base.hundredsOfFeet) ∧
    (x.cover = x'.cover ∧ x.oktas = x'.oktas ↔ l.cover.Alike l'.cover) ∧
    (x.type = x'.type ↔ l.kind.stated = l'.kind.stated) := by
  obtain ⟨s, u⟩ := h
  obtain ⟨s', u'⟩ := h'
  have t : TellsIn cloudHeights l.metres l'.metres x x' :=
    tells_of (C103_cloud l l' hl hl' x x' u u') (C103_cloud l' l hl' hl x' x u' u) fun v hv =>
      ⟨length_none u v hv, length_none u' v hv⟩
  refine ⟨t, fun v hv hs => ?_, ?_, ?_⟩
  · have := t v hv hs
    unfold Layer.metres at this
    match e : l.base.hundredsOfFeet, e' : l'.base.hundredsOfFeet with
    | none, none => rfl
    | none, some _ => rw [e, e'] at this; simp at this
    | some _, none => rw [e, e'] at this; simp at this
    | some a, some b =>
      rw [e, e'] at this
      simp only [Option.map_some, Option.some.injEq] at this
      have : (a : Rat) = b := by grind
      exact congrArg some (by exact_mod_cast this)
  · rw [s.cover, s'.cover, s.oktas, s'.oktas]
    exact (alike_iff _ _).symm
  · rw [s.type, s'.type]
    exact kind_alike _ _

theorem map_inj {α β : Type} {f : α → β} (hf : ∀ a b, f a = f b → a = b) {x y : Option α}
    (h : x.map f = y.map f) : x = y := by
  cases x <;> cases y <;> simp_all
  exact hf _ _ h

theorem intensity_inj (a b : Intensity) : a.means = b.means → a = b := by
  cases a <;> cases b <;> decide
theorem descriptor_inj (a b : Descriptor) : a.means = b.means → a = b := by
  cases a <;> cases b <;> decide
theorem precipitation_inj (a b : Precipitation) : a.means = b.means → a = b := by
  cases a <;> cases b <;> decide
theorem obscuration_inj (a b : Obscuration) : a.means = b.means → a = b := by
  cases a <;> cases b <;> decide
theorem other_inj (a b : OtherWeather) : a.means = b.means → a = b := by
  cases a <;> cases b <;> decide

/-- C112, weather: the five descriptions are equal exactly when the same intensity, descriptor and
phenomenon are stated. -/
theorem C112_weather (w w' : WeatherGroup) (x x' : Weather) (h : weatherGrammar.Says w x)
    (h' : weatherGrammar.Says w' x') :
    (x.intensity = x'.intensity ∧ x.description = x'.description ∧ x.precipitation = x'.precipitation ∧
      x.obscuration = x'.obscuration ∧ x.other = x'.other) ↔
    (w.intensity = w'.intensity ∧ w.descriptor = w'.descriptor ∧ w.stated = w'.stated) := by
  obtain ⟨-, a1, a2, a3, a4, a5⟩ := h
  obtain ⟨-, b1, b2, b3, b4, b5⟩ := h'
  rw [a1, a2, a3, a4, a5, b1, b2, b3, b4, b5]
  constructor
  · rintro ⟨e1, e2, e3, e4, e5⟩
    refine ⟨map_inj intensity_inj e1, map_inj descriptor_inj e2, ?_⟩
    have e3 := map_inj precipitation_inj e3
    have e4 := map_inj obscuration_inj e4
    have e5 := map_inj other_inj e5
    unfold WeatherGroup.stated
    generalize w.phenomenon = p at *
    generalize w'.phenomenon = p' at *
    match p, p' with
    | none, none => rfl
    | none, some q => cases q <;> simp_all [Phenomenon.precipitation, Phenomenon.obscuration, Phenomenon.otherWeather]
    | some q, none => cases q <;> simp_all [Phenomenon.precipitation, Phenomenon.obscuration, Phenomenon.otherWeather]
    | some q, some q' =>
      cases q <;> cases q' <;>
        simp_all [Phenomenon.precipitation, Phenomenon.obscuration, Phenomenon.otherWeather]
  · rintro ⟨e1, e2, e3⟩
    have hb : ∀ {β : Type} (f : Phenomenon → Option β), f .missing = none → ∀ w : WeatherGroup,
        w.phenomenon.bind f = w.stated.bind f := by
      intro β f hf w
      unfold WeatherGroup.stated
      generalize w.phenomenon = p
      match p with
      | none => rfl
      | some .missing => simp [hf]
      | some (.prec _) => rfl
      | some (.obsc _) => rfl
      | some (.other _) => rfl
    rw [e1, e2, hb _ rfl w, hb _ rfl w', hb _ rfl w, hb _ rfl w', hb _ rfl w, hb _ rfl w', e3]
    exact ⟨rfl, rfl, rfl, rfl, rfl⟩

/-- C112, recent weather: the four descriptions determine the group. -/
theorem C112_recent (w w' : RecentGroup) (x x' : RecentWeather) (h : recentGrammar.Says w x)
    (h' : recentGrammar.Says w' x') :
    (x.description = x'.description ∧ x.precipitation = x'.precipitation ∧
      x.obscuration = x'.obscuration ∧ x.other = x'.other) ↔ w = w' := by
  obtain ⟨-, a2, a3, a4, a5⟩ := h
  obtain ⟨-, b2, b3, b4, b5⟩ := h'
  rw [a2, a3, a4, a5, b2, b3, b4, b5]
  constructor
  · rintro ⟨e2, e3, e4, e5⟩
    have e2 := map_inj descriptor_inj e2
    have e3 := map_inj precipitation_inj e3
    have e4 := map_inj obscuration_inj e4
    have e5 := map_inj other_inj e5
    cases w; cases w'
    simp_all
  · rintro rfl
    exact ⟨rfl, rfl, rfl, rfl⟩

/-- C112, weather groups as they are decoded from their texts. -/
theorem C112_weather_decoded (w w' : WeatherGroup) (m m' : Match)
    (h : MetarRegExp.WEATHER.match w.text = some m) (h' : MetarRegExp.WEATHER.match w'.text = some m') :
    ((Weather.new m).intensity = (Weather.new m').intensity ∧
      (Weather.new m).description = (Weather.new m').description ∧
      (Weather.new m).precipitation = (Weather.new m').precipitation ∧
      (Weather.new m).obscuration = (Weather.new m').obscuration ∧
      (Weather.new m).other = (Weather.new m').other) ↔
    (w.intensity = w'.intensity ∧ w.descriptor = w'.descriptor ∧ w.stated = w'.stated) := by
  have says : ∀ (w : WeatherGroup) (m : Match), MetarRegExp.WEATHER.match w.text = some m →
      weatherGrammar.Says w (Weather.new m) := by
    intro w m h
    obtain ⟨m1, x, h1, h2, h3⟩ := weather_reads.1 w trivial
    cases Option.some.inj (h.symm.trans h1)
    cases h2
    exact h3
  exact C112_weather w w' _ _ (says w m h) (says w' m' h')

/-- C112, two METARs. Attributes that are equal in one unit come from groups that state the same. -/
theorem C112_metar (db db' : Database) (clock clock' : Clock) (code code' : PyStr) (a a' : Args)
    (r r' : Metar) (c c' : List (PyStr × Nat))
    (h : Metar.new db clock code a = .ok r) (h' : Metar.new db' clock' code' a' = .ok r')
    (hc : Decodes (Metar.handlers db (clock 2) a) (metarGroups r.body) c)
    (hc' : Decodes (Metar.handlers db' (clock' 2) a') (metarGroups r'.body) c') :
    (∀ w w' : WindGroup, w.WF → w'.WF → (w.text, 4) ∈ c → (w'.text, 4) ∈ c' →
      TellsIn windDirections (statedDegrees w.dir.degrees) (statedDegrees w'.dir.degrees)
        r.core.wind r'.core.wind ∧
      TellsIn windSpeeds (statedMps w.mps w.speed.number) (statedMps w'.mps w'.speed.number)
        r.core.wind r'.core.wind ∧
      TellsIn windGusts (statedMps w.mps w.gustNumber) (statedMps w'.mps w'.gustNumber)
        r.core.wind r'.core.wind) ∧
    (∀ w w' : VisGroup, w.WF → w'.WF → (w.text, 6) ∈ c → (w'.text, 6) ∈ c' →
      TellsIn visibilities w.metresStated w'.metresStated r.core.prevailing r'.core.prevailing) ∧
    (∀ g g' : TempGroup, g.WF → g'.WF → (g.text, 18) ∈ c → (g'.text, 18) ∈ c' →
      TellsIn airTemperatures g.air.celsius g'.air.celsius r.temperatures r'.temperatures ∧
      TellsIn dewpoints g.dew.celsius g'.dew.celsius r.temperatures r'.temperatures) ∧
    (∀ g g' : PressGroup, g.WF → g'.WF → g.Hecto ∧ g'.Hecto ∨ g.Inches ∧ g'.Inches →
      (taken c 19 20).getLast? = some g.text → (taken c' 19 20).getLast? = some g'.text →
      ∀ u ∈ pressures, SameNumber (u r.pressure) (u r'.pressure) →
        g.number.map digitsVal = g'.number.map digitsVal) ∧
    (∀ g g' : SeaGroup, seaGrammar.WF g → seaGrammar.WF g' → (g.text, 25) ∈ c → (g'.text, 25) ∈ c' →
      TellsIn seaTemperatures (statedCelsius g.minus (some (digitsVal g.temp)))
        (statedCelsius g'.minus (some (digitsVal g'.temp))) r.seaState r'.seaState ∧
      TellsIn waveHeights g.value.statedMetres g'.value.statedMetres r.seaState r'.seaState) ∧
    (∀ (i j : Nat) (l l' : Layer) x x', l.WF → l'.WF → (taken c 14 17)[i]? = some l.text →
      (taken c' 14 17)[j]? = some l'.text → r.core.clouds.list[i]? = some x →
      r'.core.clouds.list[j]? = some x' →
      x.cover = x'.cover → x.oktas = x'.oktas → x.type = x'.type →
      (∃ u ∈ cloudHeights, SameNumber (u x) (u x')) →
      l.cover.Alike l'.cover ∧ l.kind.stated = l'.kind.stated ∧
        l.base.hundredsOfFeet = l'.base.hundredsOfFeet) := by
  obtain ⟨q1, -, q3, -, -, q6, q7, q8, q9⟩ := C84_metar db clock code a r c h hc
  obtain ⟨p1, -, p3, -, -, p6, p7, p8, p9⟩ := C84_metar db' clock' code' a' r' c' h' hc'
  refine ⟨fun w w' hw hw' hm hm' => ?_, fun w w' hw hw' hm hm' => ?_, fun g g' hg hg' hm hm' => ?_,
    fun g g' hg hg' hu hm hm' u hp hs => ?_, fun g g' hg hg' hm hm' => ?_,
    fun i j l l' x x' hl hl' ht ht' hx hx' e1 e2 e3 ⟨u, hu, e4⟩ => ?_⟩
  · obtain ⟨t1, t2, t3, -⟩ := C112_wind w w' hw hw' _ _ (q1.value w hw hm).2 (p1.value w' hw' hm').2
    exact ⟨t1, t2, t3⟩
  · exact C112_visibility w w' hw hw' _ _ (q3.value w hw hm).2 (p3.value w' hw' hm').2
  · obtain ⟨t1, t2, -⟩ := C112_temperatures g g' _ _ (q7.value g hg hm).2 (p7.value g' hg' hm').2
    exact ⟨t1, t2⟩
  · have sensible : ∀ g : PressGroup, g.Hecto ∨ g.Inches → g.Sensible := by
      intro g h hb
      rcases h with ⟨h, -⟩ | h
      · rw [hb.1] at h; simp at h
      · rcases h with h | h
        · rw [hb.1] at h; simp at h
        · rw [hb.2] at h; simp at h
    have hs1 : g.Sensible := sensible g (hu.imp And.left And.left)
    have hs2 : g'.Sensible := sensible g' (hu.imp And.right And.right)
    refine (C112_pressure g g' hg hg' _ _ (((q8.1 _ hm).2 g hg rfl).2 hs1) (((p8.1 _ hm').2 g' hg' rfl).2 hs2)
      u hp hs).2.2 ?_
    have no : ∀ g : PressGroup, g.Hecto → ¬ g.Inches := by
      rintro g ⟨h1, h2⟩ (h | h)
      · rw [h] at h1; simp at h1
      · rw [h] at h2; cases h2
    rcases hu with ⟨k, k'⟩ | ⟨k, k'⟩
    · exact ⟨fun h => absurd h (no g k), fun h => absurd h (no g' k')⟩
    · exact ⟨fun _ => k', fun _ => k⟩
  · exact C112_sea g g' hg.2 hg'.2 _ _ (q9.value g hg hm).2 (p9.value g' hg' hm').2
  · have v := (each_at q6 ht hx).2 l hl rfl
    have v' := (each_at p6 ht' hx').2 l' hl' rfl
    obtain ⟨-, t1, t2, t3⟩ := C112_cloud l l' hl hl' x x' v v'
    exact ⟨t2.1 ⟨e1, e2⟩, t3.1 e3, t1 u hu e4⟩

/-- C112, a change of a TAF and the METAR of an observation. Where forecast and observation agree in one
unit they state the same wind, visibility or layer. -/
theorem C112_forecast (db db' : Database) (clock clock' : Clock) (code code' : PyStr) (a a' : Args)
    (t : Taf) (y : ChangeForecasted) (r : Metar) (c c' : List (PyStr × Nat))
    (h : Taf.new db clock code a = .ok t) (hy : y ∈ t.changes.list)
    (h' : Metar.new db' clock' code' a' = .ok r)
    (hc : Decodes ChangeForecasted.handlers (changeGroups y.code) c)
    (hc' : Decodes (Metar.handlers db' (clock' 2) a') (metarGroups r.body) c') :
    (∀ w w' : WindGroup, w.WF → w.Forecast → w'.WF → (w.text, 2) ∈ c → (w'.text, 4) ∈ c' →
      TellsIn windDirections (statedDegrees w.dir.degrees) (statedDegrees w'.dir.degrees)
        y.core.wind r.core.wind ∧
      TellsIn windSpeeds (statedMps w.mps w.speed.number) (statedMps w'.mps w'.speed.number)
        y.core.wind r.core.wind ∧
      TellsIn windGusts (statedMps w.mps w.gustNumber) (statedMps w'.mps w'.gustNumber)
        y.core.wind r.core.wind) ∧
    (∀ w w' : VisGroup, w.WF → w'.WF → (w.text, 3) ∈ c → (w'.text, 6) ∈ c' →
      TellsIn visibilities w.metresStated w'.metresStated y.core.prevailing r.core.prevailing) ∧
    (∀ (i j : Nat) (l l' : Layer) x x', l.WF → l'.WF → (taken c 7 10)[i]? = some l.text →
      (taken c' 14 17)[j]? = some l'.text → y.core.clouds.list[i]? = some x →
      r.core.clouds.list[j]? = some x' →
      x.cover = x'.cover → x.oktas = x'.oktas → x.type = x'.type →
      (∃ u ∈ cloudHeights, SameNumber (u x) (u x')) →
      l.cover.Alike l'.cover ∧ l.kind.stated = l'.kind.stated ∧
        l.base.hundredsOfFeet = l'.base.hundredsOfFeet) := by
  obtain ⟨q1, q3, q6⟩ := C84_change db clock code a t y c h hy hc
  obtain ⟨p1, -, p3, -, -, p6, -⟩ := C84_metar db' clock' code' a' r c' h' hc'
  refine ⟨fun w w' hw hf hw' hm hm' => ?_, fun w w' hw hw' hm hm' => ?_,
    fun i j l l' x x' hl hl' ht ht' hx hx' e1 e2 e3 ⟨u, hu, e4⟩ => ?_⟩
  · obtain ⟨t1, t2, t3, -⟩ := C112_wind w w' hw hw' _ _ (q1.value w ⟨hw, hf⟩ hm).2 (p1.value w' hw' hm').2
    exact ⟨t1, t2, t3⟩
  · exact C112_visibility w w' hw hw' _ _ (q3.value w hw hm).2 (p3.value w' hw' hm').2
  · have v := (each_at q6 ht hx).2 l hl rfl
    have v' := (each_at p6 ht' hx').2 l' hl' rfl
    obtain ⟨-, t1, t2, t3⟩ := C112_cloud l l' hl hl' x x' v v'
    exact ⟨t2.1 ⟨e1, e2⟩, t3.1 e3, t1 u hu e4⟩

/-! ### Instances -/

/-- Equal values from different texts: `M05` and `-05`, `5KM` and `5000`, `FEW010` and `FEW010///`, `SKC`
and `CLR`; winds with a `P` or without. -/
example : (match Metar.new sampleDb sampleClock py!"METAR SKBO 151200Z 09010KT 5KM FEW010 M05/M00 Q1013" {},
      Metar.new sampleDb sampleClock py!"METAR SKBO 151200Z 090P10KT 5000 FEW010/// -05/00 QNH1013" {} with
    | .ok r, .ok r' =>
      let same (v v' : Option F64) : Bool := v.map (·.val) == v'.map (·.val)
      (windSpeeds.all fun u => same (u r.core.wind) (u r'.core.wind)) &&
      (windDirections.all fun u => same (u r.core.wind) (u r'.core.wind)) &&
      (visibilities.all fun u => same (u r.core.prevailing) (u r'.core.prevailing)) &&
      (airTemperatures.all fun u => same (u r.temperatures) (u r'.temperatures)) &&
      (dewpoints.all fun u => same (u r.temperatures) (u r'.temperatures)) &&
      (pressures.all fun u => same (u r.pressure) (u r'.pressure)) &&
      (match r.core.clouds.list, r'.core.clouds.list with
        | [x], [x'] => x.cover == x'.cover && x.oktas == x'.oktas && x.type == x'.type &&
            cloudHeights.all fun u => same (u x) (u x')
        | _, _ => false)
    | _, _ => false) = true := by decide +kernel
example : (VisGroup.range ⟨.exact, some py!"5", false, none, .km⟩).metresStated =
    (VisGroup.metres (.digits py!"5000") none).metresStated := by decide +kernel
example : (TempPart.mk (some .letter) (.digits py!"05")).celsius = (TempPart.mk (some .dash) (.digits py!"05")).celsius :=
  rfl
example : Cover.Alike .skc .clr ∧ ¬ Cover.Alike .skc .nsc := by decide

/-- A change of a TAF and an observation that agree in wind, visibility and clouds. -/
example : (match Taf.new sampleDb sampleClock py!"TAF SKBO 151100Z 1512/1612 09010KT 9999 FEW010 TEMPO 1514/1518 18015G25KT 5000 BKN008CB" {},
      Metar.new sampleDb sampleClock py!"METAR SKBO 151500Z 18015G25KT 5KM BKN008CB 15/14 Q1013" {} with
    | .ok t, .ok r' =>
      let same (v v' : Option F64) : Bool := v.map (·.val) == v'.map (·.val)
      match t.changes.list with
      | [r] =>
        (windSpeeds.all fun u => same (u r.core.wind) (u r'.core.wind)) &&
        (windGusts.all fun u => same (u r.core.wind) (u r'.core.wind)) &&
        (windDirections.all fun u => same (u r.core.wind) (u r'.core.wind)) &&
        (visibilities.all fun u => same (u r.core.prevailing) (u r'.core.prevailing)) &&
        (match r.core.clouds.list, r'.core.clouds.list with
          | [x], [x'] => x.cover == x'.cover && x.oktas == x'.oktas && x.type == x'.type &&
              cloudHeights.all fun u => same (u x) (u x')
          | _, _ => false)
      | _ => false
    | _, _ => false) = true := by decide +kernel

/-- C112. Pressures in different units may be equal though different pressures are stated, so their digits
are compared in the same unit only: 1000 hPa and 29.53 inches. -/
theorem C112_pressure_unit_needed : ¬ ∀ (clock : Clock) (code code' : PyStr) (r r' : Metar)
    (g g' : PressGroup), Metar.new sampleDb clock code {} = .ok r → Metar.new sampleDb clock code' {} = .ok r' →
    r.pressure.code = some g.text → r'.pressure.code = some g'.text →
    SameNumber r.pressure.inHPa r'.pressure.inHPa → g.statedHPa = g'.statedHPa := by
  intro h
  have e1 : (match Metar.new sampleDb sampleClock py!"METAR SKBO 151200Z Q1000" {},
        Metar.new sampleDb sampleClock py!"METAR SKBO 151200Z A2953" {} with
      | .ok r, .ok r' => decide (r.pressure.code = some py!"Q1000" ∧ r'.pressure.code = some py!"A2953" ∧
          r.pressure.inHPa.map (·.val) = r'.pressure.inHPa.map (·.val))
      | _, _ => false) = true := by decide +kernel
  split at e1
  · next r r' hr hr' =>
    obtain ⟨c1, c2, c3⟩ := of_decide_eq_true e1
    have := h sampleClock _ _ r r' (PressGroup.mk (some .Q) (some py!"1000") false)
      (PressGroup.mk (some .A) (some py!"2953") false) hr hr' c1 c2 c3
    revert this
    decide +kernel
  · cases e1

end Verif.Props
