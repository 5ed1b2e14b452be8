import Verif.Spec.Tables
import Verif.Spec.Parse
import Verif.Lemmas.Construct

/-
Two runs of a constructor with different tables.
-/

namespace Verif
open Spec

theorem Spec.Both.bind {α β γ δ : Type} {R : α → β → Prop} {S : γ → δ → Prop} {x : Except Exc α}
    {y : Except Exc β} {f : α → Except Exc γ} {g : β → Except Exc δ} (h : Both R x y)
    (hf : ∀ a b, R a b → Both S (f a) (g b)) : Both S (x >>= f) (y >>= g) := by
  cases h with
  | ok h => exact hf _ _ h
  | error e => exact .error e

theorem Spec.Both.same {α : Type} (x : Except Exc α) : Both (fun a b => a = b) x x := by
  cases x with
  | ok a => exact .ok rfl
  | error e => exact .error e

theorem Spec.Both.mono {α β : Type} {R S : α → β → Prop} {x : Except Exc α} {y : Except Exc β}
    (h : Both R x y) (hf : ∀ a b, R a b → S a b) : Both S x y := by
  cases h with
  | ok h => exact .ok (hf _ _ h)
  | error e => exact .error e

/-! ### The loop over the groups -/

/-- Two handlers with one pattern at position `j` of their tables, that take states related by `P i`,
`i ≤ j` the handlers passed so far, to states related by `P (j + 1)`. -/
def AlikeAt {σ : Type} (P : Nat → σ → σ → Prop) (j : Nat) (h h' : Handler σ) : Prop :=
  h.regexp = h'.regexp ∧ ∀ i, i ≤ j → ∀ m s s', P i s s' → Both (P (j + 1)) (h.run m s) (h'.run m s')

inductive AlikeFrom {σ : Type} (P : Nat → σ → σ → Prop) : Nat → List (Handler σ) → List (Handler σ) → Prop
  | nil (j : Nat) : AlikeFrom P j [] []
  | cons {j h h' hs hs'} : AlikeAt P j h h' → AlikeFrom P (j + 1) hs hs' → AlikeFrom P j (h :: hs) (h' :: hs')

theorem AlikeFrom.drop {σ : Type} {P : Nat → σ → σ → Prop} {j : Nat} {hs hs' : List (Handler σ)}
    (h : AlikeFrom P j hs hs') (n : Nat) : AlikeFrom P (j + n) (hs.drop n) (hs'.drop n) := by
  induction h generalizing n with
  | nil j => simpa using .nil _
  | cons h1 h2 ih =>
    cases n with
    | zero => exact .cons h1 h2
    | succ n =>
      have := ih n
      rw [Nat.add_assoc, Nat.add_comm 1] at this
      exact this

theorem tryHandlers_alike {σ : Type} {P : Nat → σ → σ → Prop} {j : Nat} {hs hs' : List (Handler σ)}
    (h : AlikeFrom P j hs hs') (g : PyStr) (n : Nat) :
    (tryHandlers hs g n = none ∧ tryHandlers hs' g n = none) ∨
    ∃ d m h h', tryHandlers hs g n = some (n + d + 1, m, h) ∧
      tryHandlers hs' g n = some (n + d + 1, m, h') ∧ AlikeAt P (j + d) h h' := by
  induction h generalizing n with
  | nil => exact .inl ⟨rfl, rfl⟩
  | @cons j a b as bs h1 _ ih =>
    unfold tryHandlers
    rw [← h1.1]
    cases a.regexp.match g with
    | none =>
      rcases ih (n + 1) with h | ⟨d, m, x, y, e1, e2, e3⟩
      · exact .inl h
      · refine .inr ⟨d + 1, m, x, y, ?_, ?_, ?_⟩
        · rw [show n + (d + 1) + 1 = n + 1 + d + 1 by omega]; exact e1
        · rw [show n + (d + 1) + 1 = n + 1 + d + 1 by omega]; exact e2
        · rw [show j + (d + 1) = j + 1 + d by omega]; exact e3
    | some m => exact .inr ⟨0, m, a, b, rfl, rfl, h1⟩

theorem parseGo_alike {σ : Type} {P : Nat → σ → σ → Prop} {hs hs' : List (Handler σ)}
    (h : AlikeFrom P 0 hs hs') (gs : List PyStr) (i : Nat) (un : List PyStr) {s s' : σ} (hP : P i s s') :
    Both (fun x y => (∃ i, P i x.1 y.1) ∧ x.2 = y.2) (parseGo hs gs i un s) (parseGo hs' gs i un s') := by
  induction gs generalizing i un s s' with
  | nil => exact .ok ⟨⟨i, hP⟩, rfl⟩
  | cons g gs ih =>
    unfold parseGo
    simp only
    have hd := h.drop i
    rw [Nat.zero_add] at hd
    rcases tryHandlers_alike hd g 0 with ⟨h1, h2⟩ | ⟨d, m, a, b, h1, h2, h3⟩
    · rw [h1, h2]
      exact ih _ _ hP
    · rw [h1, h2]
      have := h3.2 i (Nat.le_add_right _ _) m s s' hP
      simp only
      revert this
      generalize a.run m s = x
      generalize b.run m s' = y
      intro this
      cases this with
      | error e => exact .error e
      | ok hab =>
        refine ih _ _ ?_
        rw [show i + (0 + d + 1) = i + d + 1 by omega]
        exact hab

theorem parseSection_alike {σ : Type} {P : Nat → σ → σ → Prop} {hs hs' : List (Handler σ)}
    (h : AlikeFrom P 0 hs hs') (text : PyStr) {s s' : σ} (hP : P 0 s s') :
    Both (fun x y => (∃ i, P i x.1 y.1) ∧ x.2 = y.2) (parseSection hs text s) (parseSection hs' text s') :=
  parseGo_alike h _ _ _ hP

/-! ### The shared attributes -/

/-- A method that appends to the text and does not look at it. -/
def Core.Appends (h : Match → Core → Except Exc Core) : Prop :=
  ∀ m c str, Both (fun x x' => ∃ t, x.string = c.string ++ t ∧ x' = { x with string := str ++ t })
    (h m c) (h m { c with string := str })

theorem Core.handleWind_appends : Core.Appends Core.handleWind := fun m c str =>
  (Both.same (MetarWind.new m)).bind fun a b hab => by subst hab; exact .ok ⟨_, rfl, rfl⟩

theorem Core.handlePrevailing_appends : Core.Appends Core.handlePrevailing := fun m c str =>
  (Both.same (Verif.prevailing m)).bind fun a b hab => by subst hab; exact .ok ⟨_, rfl, rfl⟩

theorem Core.handleWeather_appends : Core.Appends Core.handleWeather := fun m c str =>
  (Both.same (c.weathers.add (Weather.new m))).bind fun a b hab => by subst hab; exact .ok ⟨_, rfl, rfl⟩

theorem Core.handleCloud_appends : Core.Appends Core.handleCloud := fun m c str =>
  (Both.same (Cloud.fromMetar m)).bind fun a b hab => by
    subst hab
    exact (Both.same (c.clouds.add a)).bind fun a b hab => by subst hab; exact .ok ⟨_, rfl, rfl⟩

theorem Spec.SameButStation.append {db db' : Database} {s s' : Station} {x y : PyStr}
    (h : SameButStation db db' s s' x y) (t : PyStr) : SameButStation db db' s s' (x ++ t) (y ++ t) := by
  rcases h with ⟨h1, h2⟩ | ⟨pre, post, h1, h2⟩
  · exact .inl ⟨h1, by rw [h2]⟩
  · exact .inr ⟨pre, post ++ t, by rw [h1, List.append_assoc], by rw [h2, List.append_assoc]⟩

theorem Station.new_both (db db' : Database) (g : PyStr) :
    ∃ s s', Station.new db (some g) py!"ICAO" = .ok s ∧ Station.new db' (some g) py!"ICAO" = .ok s' ∧
      s'.code = s.code :=
  ⟨_, _, rfl, rfl, rfl⟩

theorem Station.new_same {db db' : Database} (hs : SameFirstRows db db') (g : PyStr) :
    Station.new db (some g) py!"ICAO" = Station.new db' (some g) py!"ICAO" := by
  have e : ∀ d : Database, Station.new d (some g) py!"ICAO" =
    .ok ⟨groupCode (some g), d.stations.find? fun r => g = r.icao⟩ := fun _ => rfl
  rw [e, e, hs.1 g]

theorem Station.str_same {db db' : Database} (hs : SameFirstRows db db') (s : Station) :
    s.str db = s.str db' := by
  have : s.country db = s.country db' := by
    unfold Station.country
    cases s.row with
    | none => rfl
    | some row => exact hs.2 row.country
  unfold Station.str
  rw [this]

/-! ### METAR -/

/-- The report with another station and another text. -/
def Metar.put (st : Station) (str : PyStr) (r : Metar) : Metar :=
  { r with station := st, core := { r.core with string := str } }

/-- A method that appends to the text, and looks neither at it nor at the station. -/
def Metar.Appends (h : Metar → Except Exc Metar) : Prop :=
  ∀ r st str, Both (fun x x' => x.station = r.station ∧ ∃ t, x.core.string = r.core.string ++ t ∧
    x' = x.put st (str ++ t)) (h r) (h (r.put st str))

/-- Equal up to the handler of the station, equal elsewhere after it. -/
def Metar.Stage (db db' : Database) (i : Nat) (r r' : Metar) : Prop :=
  if i ≤ 1 then r' = r else MetarElsewhere db db' r r'

theorem Metar.Stage.elsewhere {db db' : Database} {i : Nat} {r r' : Metar} (h : Metar.Stage db db' i r r') :
    MetarElsewhere db db' r r' := by
  unfold Metar.Stage at h
  split at h
  · subst h; exact ⟨rfl, rfl, .inl ⟨rfl, rfl⟩⟩
  · exact h

theorem Metar.Appends.both {h : Metar → Except Exc Metar} (hh : Metar.Appends h) {db db' : Database}
    {r r' : Metar} (hR : MetarElsewhere db db' r r') : Both (MetarElsewhere db db') (h r) (h r') := by
  obtain ⟨e, hc, ht⟩ := hR
  have := hh r r'.station r'.core.string
  rw [show r.put r'.station r'.core.string = r' from e.symm] at this
  refine this.mono ?_
  rintro x _ ⟨h1, t, h2, rfl⟩
  refine ⟨rfl, hc.trans (by rw [h1]), ?_⟩
  rw [h1, h2]
  exact ht.append t

theorem Metar.Appends.late {h : Match → Metar → Except Exc Metar} (hh : ∀ m, Metar.Appends (h m)) {db db' : Database}
    {re : RE} {j : Nat} (hj : 1 ≤ j) : AlikeAt (Metar.Stage db db') j ⟨re, h⟩ ⟨re, h⟩ := by
  refine ⟨rfl, fun i hi m r r' hR => ?_⟩
  refine ((hh m).both hR.elsewhere).mono fun x x' hx => ?_
  unfold Metar.Stage
  rw [if_neg (by omega)]
  exact hx

theorem Metar.early {h : Match → Metar → Except Exc Metar} {db db' : Database}
    {re : RE} {j : Nat} (hj : j < 1) : AlikeAt (Metar.Stage db db') j ⟨re, h⟩ ⟨re, h⟩ := by
  refine ⟨rfl, fun i hi m r r' hR => ?_⟩
  unfold Metar.Stage at hR
  rw [if_pos (by omega)] at hR
  subst hR
  refine (Both.same _).mono fun x x' hx => ?_
  unfold Metar.Stage
  rw [if_pos (by omega)]
  exact hx.symm

theorem Metar.station_alike {db db' : Database} {re : RE} :
    AlikeAt (Metar.Stage db db') 1 ⟨re, Metar.handleStation db⟩ ⟨re, Metar.handleStation db'⟩ := by
  refine ⟨rfl, fun i hi m r r' hR => ?_⟩
  unfold Metar.Stage at hR
  rw [if_pos (by omega)] at hR
  subst hR
  obtain ⟨s, s', h1, h2, h3⟩ := Station.new_both db db' m.string
  simp only [Metar.handleStation, h1, h2, ok_bind]
  refine .ok ?_
  unfold Metar.Stage
  rw [if_neg (by omega)]
  exact ⟨rfl, h3, .inr ⟨r'.core.string, py!"\n", (List.append_assoc _ _ _).symm, (List.append_assoc _ _ _).symm⟩⟩

theorem Metar.lift_appends {h : Match → Core → Except Exc Core} (hh : Core.Appends h) (m : Match) :
    Metar.Appends (Metar.lift h m) := fun r st str => by
  have := hh m r.core str
  unfold Metar.lift liftCore
  show Both _ (match h m r.core with | .ok c => _ | .error e => _)
    (match h m { r.core with string := str } with | .ok c => _ | .error e => _)
  revert this
  generalize h m r.core = x
  generalize h m { r.core with string := str } = y
  intro this
  cases this with
  | ok h =>
    obtain ⟨t, h1, rfl⟩ := h
    exact .ok ⟨rfl, t, h1, rfl⟩
  | error e => exact .error e

theorem Metar.handleTime_appends (now : Now) (a : Args) (m : Match) : Metar.Appends (Metar.handleTime now a m) := fun r st str =>
  (Both.same (Time.fromMetar now (some m) a.year a.month)).bind fun a b hab => by subst hab; exact .ok ⟨rfl, _, rfl, rfl⟩

theorem Metar.handleModifier_appends (m : Match) : Metar.Appends (Metar.handleModifier m) := fun _ _ _ =>
  .ok ⟨rfl, _, rfl, rfl⟩

theorem Metar.handleWindVariation_appends (m : Match) : Metar.Appends (Metar.handleWindVariation m) := fun r st str =>
  (Both.same (WindVariation.new m)).bind fun a b hab => by subst hab; exact .ok ⟨rfl, _, rfl, rfl⟩

theorem Metar.handleMinimumVisibility_appends (m : Match) : Metar.Appends (Metar.handleMinimumVisibility m) := fun r st str =>
  (Both.same (Verif.minimumVisibility m)).bind fun a b hab => by subst hab; exact .ok ⟨rfl, _, rfl, rfl⟩

theorem Metar.handleRunwayRange_appends (m : Match) : Metar.Appends (Metar.handleRunwayRange m) := fun r st str =>
  (Both.same (RunwayRange.new m)).bind fun a b hab => by
    subst hab
    exact (Both.same (r.runwayRanges.add a)).bind fun a b hab => by subst hab; exact .ok ⟨rfl, _, rfl, rfl⟩

theorem Metar.handleTemperatures_appends (m : Match) : Metar.Appends (Metar.handleTemperatures m) := fun r st str =>
  (Both.same (Temperatures.new m)).bind fun a b hab => by subst hab; exact .ok ⟨rfl, _, rfl, rfl⟩

theorem Metar.handlePressure_appends (m : Match) : Metar.Appends (Metar.handlePressure m) := fun r st str =>
  (Both.same (MetarPressure.new m)).bind fun a b hab => by subst hab; exact .ok ⟨rfl, _, rfl, rfl⟩

theorem Metar.handleRecentWeather_appends (m : Match) : Metar.Appends (Metar.handleRecentWeather m) := fun _ _ _ =>
  .ok ⟨rfl, _, rfl, rfl⟩

theorem Metar.handleWindshear_appends (m : Match) : Metar.Appends (Metar.handleWindshear m) := fun r st str =>
  (Both.same (r.windshears.add (Windshear.new m))).bind fun a b hab => by subst hab; exact .ok ⟨rfl, _, rfl, rfl⟩

theorem Metar.handleSeaState_appends (m : Match) : Metar.Appends (Metar.handleSeaState m) := fun r st str =>
  (Both.same (SeaState.new m)).bind fun a b hab => by subst hab; exact .ok ⟨rfl, _, rfl, rfl⟩

theorem Metar.handleRunwayState_appends (m : Match) : Metar.Appends (Metar.handleRunwayState m) := fun _ _ _ =>
  .ok ⟨rfl, _, rfl, rfl⟩

theorem Metar.handleStation_same {db db' : Database} (hs : SameFirstRows db db') :
    Metar.handleStation db = Metar.handleStation db' := by
  funext m r
  unfold Metar.handleStation
  rw [Station.new_same hs]
  congr 1
  funext s
  rw [Station.str_same hs]

theorem Metar.handlers_alike (db db' : Database) (now : Now) (a : Args) :
    AlikeFrom (Metar.Stage db db') 0 (Metar.handlers db now a) (Metar.handlers db' now a) := by
  unfold Metar.handlers
  refine .cons (Metar.early (by decide)) (.cons Metar.station_alike ?_)
  refine .cons (Metar.Appends.late (Metar.handleTime_appends now a) (by decide)) ?_
  refine .cons (Metar.Appends.late (Metar.handleModifier_appends) (by decide)) ?_
  refine .cons (Metar.Appends.late (Metar.lift_appends Core.handleWind_appends) (by decide)) ?_
  refine .cons (Metar.Appends.late (Metar.handleWindVariation_appends) (by decide)) ?_
  refine .cons (Metar.Appends.late (Metar.lift_appends Core.handlePrevailing_appends) (by decide)) ?_
  refine .cons (Metar.Appends.late (Metar.handleMinimumVisibility_appends) (by decide)) ?_
  refine .cons (Metar.Appends.late (Metar.handleRunwayRange_appends) (by decide)) ?_
  refine .cons (Metar.Appends.late (Metar.handleRunwayRange_appends) (by decide)) ?_
  refine .cons (Metar.Appends.late (Metar.handleRunwayRange_appends) (by decide)) ?_
  refine .cons (Metar.Appends.late (Metar.lift_appends Core.handleWeather_appends) (by decide)) ?_
  refine .cons (Metar.Appends.late (Metar.lift_appends Core.handleWeather_appends) (by decide)) ?_
  refine .cons (Metar.Appends.late (Metar.lift_appends Core.handleWeather_appends) (by decide)) ?_
  refine .cons (Metar.Appends.late (Metar.lift_appends Core.handleCloud_appends) (by decide)) ?_
  refine .cons (Metar.Appends.late (Metar.lift_appends Core.handleCloud_appends) (by decide)) ?_
  refine .cons (Metar.Appends.late (Metar.lift_appends Core.handleCloud_appends) (by decide)) ?_
  refine .cons (Metar.Appends.late (Metar.lift_appends Core.handleCloud_appends) (by decide)) ?_
  refine .cons (Metar.Appends.late (Metar.handleTemperatures_appends) (by decide)) ?_
  refine .cons (Metar.Appends.late (Metar.handlePressure_appends) (by decide)) ?_
  refine .cons (Metar.Appends.late (Metar.handlePressure_appends) (by decide)) ?_
  refine .cons (Metar.Appends.late (Metar.handleRecentWeather_appends) (by decide)) ?_
  refine .cons (Metar.Appends.late (Metar.handleWindshear_appends) (by decide)) ?_
  refine .cons (Metar.Appends.late (Metar.handleWindshear_appends) (by decide)) ?_
  refine .cons (Metar.Appends.late (Metar.handleWindshear_appends) (by decide)) ?_
  refine .cons (Metar.Appends.late (Metar.handleSeaState_appends) (by decide)) ?_
  refine .cons (Metar.Appends.late (Metar.handleRunwayState_appends) (by decide)) ?_
  exact .nil _

theorem Metar.handleWeatherTrend_appends (t : PyStr) : Metar.Appends (Metar.handleWeatherTrend t) := fun r st str =>
  (Both.same (ChangePeriod.new t r.time.time)).bind fun a b hab => by
    subst hab
    exact (Both.same (r.weatherTrends.add a)).bind fun a b hab => by subst hab; exact .ok ⟨rfl, _, rfl, rfl⟩

theorem Metar.trendsGo_both {db db' : Database} (ts : List PyStr) {r r' : Metar} (h : MetarElsewhere db db' r r') :
    Both (MetarElsewhere db db') (Metar.trendsGo ts r) (Metar.trendsGo ts r') := by
  induction ts generalizing r r' with
  | nil => exact .ok h
  | cons t ts ih =>
    unfold Metar.trendsGo
    split
    · exact ((Metar.handleWeatherTrend_appends t).both h).bind fun a b hab => ih hab
    · exact ih h

theorem Metar.parseWeatherTrend_both {db db' : Database} {a : Args} {r r' : Metar} (h : MetarElsewhere db db' r r') :
    Both (MetarElsewhere db db') (Metar.parseWeatherTrend a r) (Metar.parseWeatherTrend a r') := by
  unfold Metar.parseWeatherTrend
  have ht : r'.trend = r.trend := by rw [h.1]; rfl
  rw [ht]
  refine (Metar.trendsGo_both _ h).bind fun x x' hx => ?_
  obtain ⟨e, hc, hs⟩ := hx
  generalize x'.station = st at *
  generalize x'.core.string = str at *
  subst e
  simp only
  split
  · exact .error _
  · exact .ok ⟨rfl, hc, hs⟩

theorem Metar.new_both (db db' : Database) (clock : Clock) (code : PyStr) (a : Args) :
    Both (MetarElsewhere db db') (Metar.new db clock code a) (Metar.new db' clock code a) := by
  unfold Metar.new
  split
  · exact .error _
  · refine (Both.same _).bind fun x y hxy => ?_
    refine (Both.same (.ok ⟨none, none⟩ : Except Exc Station)).bind fun st st' hst => ?_
    subst hst
    refine (Both.same _).bind fun t t' ht => ?_
    subst ht
    refine Both.bind (R := MetarElsewhere db db') ?_ fun r r' hr => Metar.parseWeatherTrend_both hr
    unfold Metar.parseBody
    refine (parseSection_alike (Metar.handlers_alike db db' (clock 2) a) _ (by exact rfl)).bind ?_
    rintro ⟨x, un⟩ ⟨x', un'⟩ ⟨⟨i, h⟩, h2⟩
    obtain ⟨e, hc, hs⟩ := h.elsewhere
    cases h2
    refine .ok ⟨?_, hc, hs⟩
    simp only at e ⊢
    generalize x'.station = st at *
    generalize x'.core.string = str at *
    subst e
    rfl

/-! ### TAF -/

/-- The report with another station and another text. -/
def Taf.put (st : Station) (str : PyStr) (r : Taf) : Taf :=
  { r with station := st, core := { r.core with string := str } }

/-- A method that appends to the text, and looks neither at it nor at the station. -/
def Taf.Appends (h : Taf → Except Exc Taf) : Prop :=
  ∀ r st str, Both (fun x x' => x.station = r.station ∧ ∃ t, x.core.string = r.core.string ++ t ∧
    x' = x.put st (str ++ t)) (h r) (h (r.put st str))

/-- Equal up to the handler of the station, equal elsewhere after it. -/
def Taf.Stage (db db' : Database) (i : Nat) (r r' : Taf) : Prop :=
  if i ≤ 2 then r' = r else TafElsewhere db db' r r'

theorem Taf.Stage.elsewhere {db db' : Database} {i : Nat} {r r' : Taf} (h : Taf.Stage db db' i r r') :
    TafElsewhere db db' r r' := by
  unfold Taf.Stage at h
  split at h
  · subst h; exact ⟨rfl, rfl, .inl ⟨rfl, rfl⟩⟩
  · exact h

theorem Taf.Appends.both {h : Taf → Except Exc Taf} (hh : Taf.Appends h) {db db' : Database}
    {r r' : Taf} (hR : TafElsewhere db db' r r') : Both (TafElsewhere db db') (h r) (h r') := by
  obtain ⟨e, hc, ht⟩ := hR
  have := hh r r'.station r'.core.string
  rw [show r.put r'.station r'.core.string = r' from e.symm] at this
  refine this.mono ?_
  rintro x _ ⟨h1, t, h2, rfl⟩
  refine ⟨rfl, hc.trans (by rw [h1]), ?_⟩
  rw [h1, h2]
  exact ht.append t

theorem Taf.Appends.late {h : Match → Taf → Except Exc Taf} (hh : ∀ m, Taf.Appends (h m)) {db db' : Database}
    {re : RE} {j : Nat} (hj : 2 ≤ j) : AlikeAt (Taf.Stage db db') j ⟨re, h⟩ ⟨re, h⟩ := by
  refine ⟨rfl, fun i hi m r r' hR => ?_⟩
  refine ((hh m).both hR.elsewhere).mono fun x x' hx => ?_
  unfold Taf.Stage
  rw [if_neg (by omega)]
  exact hx

theorem Taf.early {h : Match → Taf → Except Exc Taf} {db db' : Database}
    {re : RE} {j : Nat} (hj : j < 2) : AlikeAt (Taf.Stage db db') j ⟨re, h⟩ ⟨re, h⟩ := by
  refine ⟨rfl, fun i hi m r r' hR => ?_⟩
  unfold Taf.Stage at hR
  rw [if_pos (by omega)] at hR
  subst hR
  refine (Both.same _).mono fun x x' hx => ?_
  unfold Taf.Stage
  rw [if_pos (by omega)]
  exact hx.symm

theorem Taf.station_alike {db db' : Database} {re : RE} :
    AlikeAt (Taf.Stage db db') 2 ⟨re, Taf.handleStation db⟩ ⟨re, Taf.handleStation db'⟩ := by
  refine ⟨rfl, fun i hi m r r' hR => ?_⟩
  unfold Taf.Stage at hR
  rw [if_pos (by omega)] at hR
  subst hR
  obtain ⟨s, s', h1, h2, h3⟩ := Station.new_both db db' m.string
  simp only [Taf.handleStation, h1, h2, ok_bind]
  refine .ok ?_
  unfold Taf.Stage
  rw [if_neg (by omega)]
  exact ⟨rfl, h3, .inr ⟨r'.core.string, py!"\n", (List.append_assoc _ _ _).symm, (List.append_assoc _ _ _).symm⟩⟩

theorem Taf.lift_appends {h : Match → Core → Except Exc Core} (hh : Core.Appends h) (m : Match) :
    Taf.Appends (Taf.lift h m) := fun r st str => by
  have := hh m r.core str
  unfold Taf.lift liftCore
  show Both _ (match h m r.core with | .ok c => _ | .error e => _)
    (match h m { r.core with string := str } with | .ok c => _ | .error e => _)
  revert this
  generalize h m r.core = x
  generalize h m { r.core with string := str } = y
  intro this
  cases this with
  | ok h =>
    obtain ⟨t, h1, rfl⟩ := h
    exact .ok ⟨rfl, t, h1, rfl⟩
  | error e => exact .error e

theorem Taf.handleTime_appends (now : Now) (a : Args) (m : Match) : Taf.Appends (Taf.handleTime now a m) := fun r st str =>
  (Both.same (Time.fromMetar now (some m) a.year a.month)).bind fun a b hab => by subst hab; exact .ok ⟨rfl, _, rfl, rfl⟩

theorem Taf.handleMissing_appends (m : Match) : Taf.Appends (Taf.handleMissing m) := fun _ _ _ =>
  .ok ⟨rfl, _, rfl, rfl⟩

theorem Taf.handleValid_appends (m : Match) : Taf.Appends (Taf.handleValid m) := fun r st str =>
  (Both.same (Valid.fromTaf (some m) r.time.time)).bind fun a b hab => by subst hab; exact .ok ⟨rfl, _, rfl, rfl⟩

theorem Taf.handleCancelled_appends (m : Match) : Taf.Appends (Taf.handleCancelled m) := fun _ _ _ =>
  .ok ⟨rfl, _, rfl, rfl⟩

theorem Taf.handleTemperature_appends (m : Match) : Taf.Appends (Taf.handleTemperature m) := fun r st str => by
  unfold Taf.handleTemperature
  refine (Both.same (TafTemperature.new m r.time.time)).bind fun a b hab => ?_
  subst hab
  split
  · exact (Both.same (r.maxTemperatures.add a)).bind fun a b hab => by subst hab; exact .ok ⟨rfl, _, rfl, rfl⟩
  · exact (Both.same (r.minTemperatures.add a)).bind fun a b hab => by subst hab; exact .ok ⟨rfl, _, rfl, rfl⟩

theorem Taf.handleStation_same {db db' : Database} (hs : SameFirstRows db db') :
    Taf.handleStation db = Taf.handleStation db' := by
  funext m r
  unfold Taf.handleStation
  rw [Station.new_same hs]
  congr 1
  funext s
  rw [Station.str_same hs]

theorem Taf.handlers_alike (db db' : Database) (now : Now) (a : Args) :
    AlikeFrom (Taf.Stage db db') 0 (Taf.handlers db now a) (Taf.handlers db' now a) := by
  unfold Taf.handlers
  refine .cons (Taf.early (by decide)) (.cons (Taf.early (by decide)) (.cons Taf.station_alike ?_))
  refine .cons (Taf.Appends.late (Taf.handleTime_appends now a) (by decide)) ?_
  refine .cons (Taf.Appends.late (Taf.handleMissing_appends) (by decide)) ?_
  refine .cons (Taf.Appends.late (Taf.handleValid_appends) (by decide)) ?_
  refine .cons (Taf.Appends.late (Taf.handleCancelled_appends) (by decide)) ?_
  refine .cons (Taf.Appends.late (Taf.lift_appends Core.handleWind_appends) (by decide)) ?_
  refine .cons (Taf.Appends.late (Taf.lift_appends Core.handlePrevailing_appends) (by decide)) ?_
  refine .cons (Taf.Appends.late (Taf.lift_appends Core.handleWeather_appends) (by decide)) ?_
  refine .cons (Taf.Appends.late (Taf.lift_appends Core.handleWeather_appends) (by decide)) ?_
  refine .cons (Taf.Appends.late (Taf.lift_appends Core.handleWeather_appends) (by decide)) ?_
  refine .cons (Taf.Appends.late (Taf.lift_appends Core.handleCloud_appends) (by decide)) ?_
  refine .cons (Taf.Appends.late (Taf.lift_appends Core.handleCloud_appends) (by decide)) ?_
  refine .cons (Taf.Appends.late (Taf.lift_appends Core.handleCloud_appends) (by decide)) ?_
  refine .cons (Taf.Appends.late (Taf.lift_appends Core.handleCloud_appends) (by decide)) ?_
  refine .cons (Taf.Appends.late (Taf.handleTemperature_appends) (by decide)) ?_
  refine .cons (Taf.Appends.late (Taf.handleTemperature_appends) (by decide)) ?_
  refine .cons (Taf.Appends.late (Taf.handleTemperature_appends) (by decide)) ?_
  refine .cons (Taf.Appends.late (Taf.handleTemperature_appends) (by decide)) ?_
  exact .nil _

theorem Taf.handleChange_appends (t : PyStr) : Taf.Appends (Taf.handleChange t) := fun r st str => by
  unfold Taf.handleChange
  refine (Both.same (ChangeForecasted.new t r.valid)).bind fun a b hab => ?_
  subst hab
  refine (Both.same (addChange r.changes a)).bind fun l l' hl => ?_
  subst hl
  exact .ok ⟨rfl, _, rfl, rfl⟩

theorem Taf.changesGo_both {db db' : Database} (ts : List PyStr) {r r' : Taf} (h : TafElsewhere db db' r r') :
    Both (TafElsewhere db db') (Taf.changesGo ts r) (Taf.changesGo ts r') := by
  induction ts generalizing r r' with
  | nil => exact .ok h
  | cons t ts ih =>
    unfold Taf.changesGo
    split
    · exact ((Taf.handleChange_appends t).both h).bind fun a b hab => ih hab
    · exact ih h

theorem Taf.parseChanges_both {db db' : Database} {a : Args} {r r' : Taf} (h : TafElsewhere db db' r r') :
    Both (TafElsewhere db db') (Taf.parseChanges a r) (Taf.parseChanges a r') := by
  unfold Taf.parseChanges
  have ht : r'.changesCodes = r.changesCodes := by rw [h.1]
  rw [ht]
  refine (Taf.changesGo_both _ h).bind fun x x' hx => ?_
  obtain ⟨e, hc, hs⟩ := hx
  generalize x'.station = st at *
  generalize x'.core.string = str at *
  subst e
  simp only
  split
  · exact .error _
  · exact .ok ⟨rfl, hc, hs⟩

theorem Taf.new_both (db db' : Database) (clock : Clock) (code : PyStr) (a : Args) :
    Both (TafElsewhere db db') (Taf.new db clock code a) (Taf.new db' clock code a) := by
  unfold Taf.new
  split
  · exact .error _
  · refine (Both.same _).bind fun t t' ht => ?_
    subst ht
    refine (Both.same (.ok ⟨none, none⟩ : Except Exc Station)).bind fun st st' hst => ?_
    subst hst
    refine (Both.same _).bind fun v v' hv => ?_
    subst hv
    refine Both.bind (R := TafElsewhere db db') ?_ fun r r' hr => Taf.parseChanges_both hr
    unfold Taf.parseBody
    refine (parseSection_alike (Taf.handlers_alike db db' (clock 1) a) _ (by exact rfl)).bind ?_
    rintro ⟨x, un⟩ ⟨x', un'⟩ ⟨⟨i, h⟩, h2⟩
    obtain ⟨e, hc, hs⟩ := h.elsewhere
    cases h2
    refine .ok ⟨?_, hc, hs⟩
    simp only at e ⊢
    generalize x'.station = st at *
    generalize x'.core.string = str at *
    subst e
    rfl

theorem Metar.new_same {db db' : Database} (hs : SameFirstRows db db') (clock : Clock) (code : PyStr) (a : Args) :
    Metar.new db clock code a = Metar.new db' clock code a := by
  have : Metar.handlers db = Metar.handlers db' := by
    funext now a
    unfold Metar.handlers
    rw [Metar.handleStation_same hs]
  unfold Metar.new Metar.parseBody
  rw [this]
  rfl

theorem Taf.new_same {db db' : Database} (hs : SameFirstRows db db') (clock : Clock) (code : PyStr) (a : Args) :
    Taf.new db clock code a = Taf.new db' clock code a := by
  have : Taf.handlers db = Taf.handlers db' := by
    funext now a
    unfold Taf.handlers
    rw [Taf.handleStation_same hs]
  unfold Taf.new Taf.parseBody
  rw [this]
  rfl

/-! ### The dictionaries -/

abbrev EntryElsewhere (p q : PyStr × PyVal) : Prop := p.1 = q.1 ∧ (p.1 ≠ py!"station" → p.2 = q.2)

theorem dset_elsewhere {d d' : List (PyStr × PyVal)} (h : Each EntryElsewhere d d') {p q : PyStr × PyVal}
    (hp : EntryElsewhere p q) : Each EntryElsewhere (dset d p.1 p.2) (dset d' q.1 q.2) := by
  induction h with
  | nil => exact .cons hp .nil
  | @cons a b as bs h1 h2 ih =>
    unfold dset
    rw [← h1.1, ← hp.1]
    split
    · exact .cons ⟨rfl, hp.2⟩ h2
    · rw [← hp.1] at ih
      exact .cons ⟨rfl, h1.2⟩ ih

theorem dupdate_elsewhere {d d' e e' : List (PyStr × PyVal)} (h : Each EntryElsewhere d d')
    (he : Each EntryElsewhere e e') : Each EntryElsewhere (dupdate d e) (dupdate d' e') := by
  unfold dupdate
  induction he generalizing d d' with
  | nil => exact h
  | cons h1 _ ih => exact ih (dset_elsewhere h h1)

theorem entries_same (e : List (PyStr × PyVal)) : Each EntryElsewhere e e := by
  induction e with
  | nil => exact .nil
  | cons p e ih => exact .cons ⟨rfl, fun _ => rfl⟩ ih

theorem Metar.dict_both {db db' : Database} {r r' : Metar} (h : MetarElsewhere db db' r r') :
    Both DictElsewhere (r.dict db) (r'.dict db') := by
  obtain ⟨e, -, -⟩ := h
  generalize r'.station = st at e
  generalize r'.core.string = str at e
  subst e
  unfold Metar.dict
  refine (Both.same _).bind fun x y h => ?_
  subst h
  refine (Both.same _).bind fun x2 y h => ?_
  subst h
  refine (Both.same _).bind fun x3 y h => ?_
  subst h
  refine (Both.same _).bind fun x4 y h => ?_
  subst h
  refine (Both.same _).bind fun x5 y h => ?_
  subst h
  refine .ok ⟨_, _, rfl, rfl, dupdate_elsewhere ?_ (entries_same _)⟩
  exact .cons ⟨rfl, fun _ => rfl⟩ (.cons ⟨rfl, fun _ => rfl⟩ (.cons ⟨rfl, fun _ => rfl⟩ (.cons ⟨rfl, fun _ => rfl⟩
    (.cons ⟨rfl, fun h => absurd rfl h⟩ (.cons ⟨rfl, fun _ => rfl⟩ .nil)))))

theorem Taf.dict_both {db db' : Database} {r r' : Taf} (h : TafElsewhere db db' r r') :
    Both DictElsewhere (r.dict db) (r'.dict db') := by
  obtain ⟨e, -, -⟩ := h
  generalize r'.station = st at e
  generalize r'.core.string = str at e
  subst e
  unfold Taf.dict
  refine (Both.same _).bind fun x y h => ?_
  subst h
  refine (Both.same _).bind fun x2 y h => ?_
  subst h
  refine (Both.same _).bind fun x3 y h => ?_
  subst h
  refine (Both.same _).bind fun x4 y h => ?_
  subst h
  refine (Both.same _).bind fun x5 y h => ?_
  subst h
  refine .ok ⟨_, _, rfl, rfl, dupdate_elsewhere ?_ (entries_same _)⟩
  exact .cons ⟨rfl, fun _ => rfl⟩ (.cons ⟨rfl, fun _ => rfl⟩ (.cons ⟨rfl, fun _ => rfl⟩ (.cons ⟨rfl, fun _ => rfl⟩
    (.cons ⟨rfl, fun h => absurd rfl h⟩ (.cons ⟨rfl, fun _ => rfl⟩ .nil)))))

end Verif
