import Verif.Lemmas.GroupOk
import Verif.Lemmas.Chars
import Verif.Model.Taf

/-
Which exceptions the parsers can raise.
-/

namespace Verif

variable {σ α β : Type}

/-- The exception raised satisfies `Q`, the result satisfies `P`. -/
def Post (Q : Exc → Prop) (P : α → Prop) (x : Except Exc α) : Prop :=
  Raises Q x ∧ ∀ a, x = .ok a → P a

theorem Post.ok {Q : Exc → Prop} {P : α → Prop} {a : α} (h : P a) : Post Q P (.ok a) :=
  ⟨Raises.ok a, fun b hb => by cases hb; exact h⟩

theorem Post.pure {Q : Exc → Prop} {P : α → Prop} {a : α} (h : P a) :
    Post Q P (pure a : Except Exc α) := Post.ok h

theorem Post.error {Q : Exc → Prop} {P : α → Prop} {e : Exc} (h : Q e) :
    Post Q P (.error e : Except Exc α) := ⟨Raises.error h, fun b hb => by cases hb⟩

theorem Post.bind {Q : Exc → Prop} {R : α → Prop} {P : β → Prop} {x : Except Exc α}
    {f : α → Except Exc β} (hx : Post Q R x) (hf : ∀ a, x = .ok a → R a → Post Q P (f a)) :
    Post Q P (x >>= f) := by
  refine ⟨Raises.bind hx.1 fun a ha => (hf a ha (hx.2 a ha)).1, fun b hb => ?_⟩
  obtain ⟨a, ha, hb⟩ := bind_ok.1 hb
  exact (hf a ha (hx.2 a ha)).2 b hb

theorem Post.of {Q : Exc → Prop} {x : Except Exc α} (h : Raises Q x) : Post Q (fun _ => True) x :=
  ⟨h, fun _ _ => trivial⟩

theorem Post.mono {Q Q' : Exc → Prop} {P P' : α → Prop} {x : Except Exc α} (h : Post Q P x)
    (hq : ∀ e, Q e → Q' e) (hp : ∀ a, P a → P' a) : Post Q' P' x :=
  ⟨h.1.mono hq, fun a ha => hp a (h.2 a ha)⟩

theorem Post.total {Q : Exc → Prop} {x : Except Exc α} (h : ∃ a, x = .ok a) :
    Post Q (fun _ => True) x := by
  obtain ⟨a, rfl⟩ := h; exact Post.ok trivial

/-- A property of every element of a list and its position. -/
def AllIdx (P : Nat → α → Prop) : Nat → List α → Prop
  | _, [] => True
  | k, a :: l => P k a ∧ AllIdx P (k + 1) l

theorem AllIdx.get {P : Nat → α → Prop} {k : Nat} {l : List α} (h : AllIdx P k l) {i : Nat} {a : α}
    (hi : l[i]? = some a) : P (k + i) a := by
  induction l generalizing k i with
  | nil => simp at hi
  | cons b l ih =>
    cases i with
    | zero => simp at hi; rw [← hi]; exact h.1
    | succ i =>
      have := ih h.2 (i := i) (by simpa using hi)
      rwa [show k + 1 + i = k + (i + 1) by omega] at this

/-- What the handler at position `k` does to a group that satisfies `G k` and a state that satisfies
the `k`th invariant. -/
def HandlerOk (Q : Exc → Prop) (P : Nat → σ → Prop) (G : Nat → PyStr → Prop) (k : Nat)
    (h : Handler σ) : Prop :=
  ∀ g m s, G k g → h.regexp.match g = some m → P k s → Post Q (P (k + 1)) (h.run m s)

theorem parseGo_post {hs : List (Handler σ)} {Q : Exc → Prop} {P : Nat → σ → Prop}
    {G : Nat → PyStr → Prop} (mono : ∀ k s, P k s → P (k + 1) s)
    (hall : AllIdx (HandlerOk Q P G) 0 hs) {gs : List PyStr} (hg : ∀ g ∈ gs, ∀ k, G k g) {index : Nat} {un : List PyStr} {s : σ}
    (h0 : P index s) :
    Post Q (fun x => ∃ k, index ≤ k ∧ P k x.1) (parseGo hs gs index un s) := by
  induction gs generalizing index un s with
  | nil => exact Post.ok ⟨index, Nat.le_refl _, h0⟩
  | cons g gs ih =>
    have ih := fun {index un s} => @ih (fun g h => hg g (by simp [h])) index un s
    unfold parseGo
    cases ht : tryHandlers (hs.drop index) g 0 with
    | none => exact ih h0
    | some x =>
      obtain ⟨n, m, hd⟩ := x
      obtain ⟨i, h1, h2, h3, h4⟩ := tryHandlers_some ht
      rw [List.getElem?_drop] at h2
      have hm : ∀ j, P (index + j) s := by
        intro j
        induction j with
        | zero => exact h0
        | succ j ihj => exact mono _ _ ihj
      have hp := hall.get h2 g m s (hg g (by simp) _) h3 (by rw [Nat.zero_add]; exact hm i)
      cases hr : hd.run m s with
      | error e =>
        simp only [hr]
        exact Post.error (hp.1 e hr)
      | ok s' =>
        simp only [hr]
        have hs' := hp.2 s' hr
        rw [show 0 + (index + i) + 1 = index + n by omega] at hs'
        exact (ih hs').mono (fun _ h => h) fun _ ⟨k, hk, h⟩ => ⟨k, by omega, h⟩

theorem parseSection_post {hs : List (Handler σ)} {Q : Exc → Prop} {P : Nat → σ → Prop}
    {G : Nat → PyStr → Prop} (mono : ∀ k s, P k s → P (k + 1) s)
    (hall : AllIdx (HandlerOk Q P G) 0 hs) {text : PyStr} (hg : ∀ g ∈ splitC 32 text, ∀ k, G k g) {s : σ} (h0 : P 0 s) :
    Post Q (fun x => ∃ k, P k x.1) (parseSection hs text s) :=
  (parseGo_post mono hall hg h0).mono (fun _ h => h) fun _ ⟨k, _, h⟩ => ⟨k, h⟩

/-! ### Room in the bounded lists -/

/-- The list of capacity `n` fed by the handlers from position `start` on holds no more groups than
handlers passed. -/
def Room (start n k : Nat) (g : GroupList α) : Prop := g.max = n ∧ g.list.length ≤ k - start

theorem Room.mono {start n k : Nat} {g : GroupList α} (h : Room start n k g) :
    Room start n (k + 1) g := ⟨h.1, by have := h.2; omega⟩

theorem Room.new (start n : Nat) : Room start n 0 (GroupList.new n : GroupList α) :=
  ⟨rfl, by simp [GroupList.new]⟩

theorem Room.add {Q : Exc → Prop} {start n k : Nat} {g : GroupList α} (h : Room start n k g)
    (h1 : start ≤ k) (h2 : k < start + n) (a : α) : Post Q (Room start n (k + 1)) (g.add a) := by
  unfold GroupList.add
  have := h.1
  have := h.2
  rw [if_neg (by omega)]
  exact Post.ok ⟨h.1, by simp; omega⟩

/-- The lists shared by all parsers. -/
structure CoreRoom (w c k : Nat) (x : Core) : Prop where
  weathers : Room w 3 k x.weathers
  clouds : Room c 4 k x.clouds

theorem CoreRoom.mono {w c k : Nat} {x : Core} (h : CoreRoom w c k x) : CoreRoom w c (k + 1) x :=
  ⟨h.1.mono, h.2.mono⟩

theorem CoreRoom.new (w c : Nat) : CoreRoom w c 0 {} := ⟨Room.new _ _, Room.new _ _⟩

theorem wind_post {Q : Exc → Prop} {w c k : Nat} {r : RE} (hr : WindLike r) {g : PyStr} {m : Match}
    {x : Core} (hm : r.match g = some m) (h : CoreRoom w c k x) :
    Post Q (CoreRoom w c (k + 1)) (Core.handleWind m x) := by
  unfold Core.handleWind
  exact Post.bind (Post.total (MetarWind.new_total hr hm)) fun _ _ _ =>
    Post.pure ⟨h.1.mono, h.2.mono⟩

theorem prevailing_post {Q : Exc → Prop} {w c k : Nat} {m : Match} {x : Core}
    (hp : Raises Q (prevailing m)) (h : CoreRoom w c k x) :
    Post Q (CoreRoom w c (k + 1)) (Core.handlePrevailing m x) := by
  unfold Core.handlePrevailing
  exact Post.bind (Post.of hp) fun _ _ _ =>
    Post.pure ⟨h.1.mono, h.2.mono⟩

theorem weather_post {Q : Exc → Prop} {w c k : Nat} {m : Match} {x : Core} (h : CoreRoom w c k x)
    (h1 : w ≤ k) (h2 : k < w + 3) : Post Q (CoreRoom w c (k + 1)) (Core.handleWeather m x) := by
  unfold Core.handleWeather
  exact Post.bind (h.1.add h1 h2 _) fun _ _ hr => Post.pure ⟨hr, h.2.mono⟩

theorem cloud_post {Q : Exc → Prop} {w c k : Nat} {g : PyStr} {m : Match} {x : Core}
    (hm : MetarRegExp.CLOUD.match g = some m) (h : CoreRoom w c k x)
    (h1 : c ≤ k) (h2 : k < c + 4) : Post Q (CoreRoom w c (k + 1)) (Core.handleCloud m x) := by
  unfold Core.handleCloud
  exact Post.bind (Post.total (Cloud.fromMetar_total hm)) fun _ _ _ =>
    Post.bind (h.2.add h1 h2 _) fun _ _ hr => Post.pure ⟨h.1.mono, hr⟩

theorem lift_post {Q : Exc → Prop} {get : σ → Core} {set : σ → Core → σ}
    {h : Match → Core → Except Exc Core} {m : Match} {s : σ} {P : Core → Prop} {P' : σ → Prop}
    (hp : Post Q P (h m (get s))) (hs : ∀ c, P c → P' (set s c)) :
    Post Q P' (liftCore get set h m s) := by
  refine ⟨fun e he => hp.1 e (liftCore_error.1 he), fun a ha => ?_⟩
  obtain ⟨c, hc, rfl⟩ := liftCore_ok.1 ha
  exact hs c (hp.2 c hc)

theorem ChangePeriod.lift_post {Q : Exc → Prop} {h : Match → Core → Except Exc Core} {m : Match} {s : ChangePeriod}
    {P : Core → Prop} {P' : ChangePeriod → Prop} (hp : Post Q P (h m s.core))
    (hs : ∀ c, P c → P' { s with core := c }) : Post Q P' (ChangePeriod.lift h m s) :=
  Verif.lift_post hp hs

theorem Metar.lift_post {Q : Exc → Prop} {h : Match → Core → Except Exc Core} {m : Match} {s : Metar}
    {P : Core → Prop} {P' : Metar → Prop} (hp : Post Q P (h m s.core))
    (hs : ∀ c, P c → P' { s with core := c }) : Post Q P' (Metar.lift h m s) :=
  Verif.lift_post hp hs

theorem ChangeForecasted.lift_post {Q : Exc → Prop} {h : Match → Core → Except Exc Core} {m : Match} {s : ChangeForecasted}
    {P : Core → Prop} {P' : ChangeForecasted → Prop} (hp : Post Q P (h m s.core))
    (hs : ∀ c, P c → P' { s with core := c }) : Post Q P' (ChangeForecasted.lift h m s) :=
  Verif.lift_post hp hs

theorem Taf.lift_post {Q : Exc → Prop} {h : Match → Core → Except Exc Core} {m : Match} {s : Taf}
    {P : Core → Prop} {P' : Taf → Prop} (hp : Post Q P (h m s.core))
    (hs : ∀ c, P c → P' { s with core := c }) : Post Q P' (Taf.lift h m s) :=
  Verif.lift_post hp hs

/-! ### Change indicators -/

theorem startsWith_cons {c : Nat} {s p : PyStr} (h : startsWith s (c :: p) = true) :
    s[0]? = some c := by
  cases s with
  | nil => simp [startsWith] at h
  | cons d t =>
    simp [startsWith] at h
    simp [h.1]

/-- The first class a path goes through does not hold `c`. -/
def headAvoids (c : Nat) : List Step → Bool
  | .ch cc :: _ => !cc.mem c
  | _ => false

theorem headAvoids_sound {c : Nat} {s : PyStr} {steps : List Step} (h : headAvoids c steps = true)
    (hf : Follows s 0 steps) : s[0]? ≠ some c := by
  unfold headAvoids at h
  split at h
  · next cc t =>
    obtain ⟨d, hd, hm, _⟩ := hf
    rw [hd]
    intro he
    cases he
    simp [hm] at h
  · cases h

theorem metar_change_head {g : PyStr} {m : Match}
    (hm : MetarRegExp.CHANGE_INDICATOR.match g = some m) : startsWith g py!"PROB" = false := by
  obtain ⟨x, hx, _, _, _, hf⟩ := RE.match_path (by decide +kernel) hm
  have : ∀ x ∈ MetarRegExp.CHANGE_INDICATOR.paths0, headAvoids 80 x.1 = true := by decide +kernel
  have := headAvoids_sound (this x hx) hf
  cases h : startsWith g py!"PROB" with
  | false => rfl
  | true => exact absurd (startsWith_cons h) this

theorem changeIndicator_total {m : Match} (h : startsWith m.string py!"PROB" = false) :
    ∃ tr, changeIndicator m = .ok (groupCode (some m.string), tr) := by
  unfold changeIndicator
  split
  · exact ⟨_, rfl⟩
  · rw [if_neg (by simp [h])]; exact ⟨_, rfl⟩

theorem TrendIndicator.new_post {o : Option Match} {t : DT}
    (h : ∀ m, o = some m → startsWith m.string py!"PROB" = false) :
    Post (· = .overflow) (fun i => (i.code = none → o = none) ∧ i.init.time = t)
      (TrendIndicator.new o t) := by
  unfold TrendIndicator.new
  refine Post.bind (R := fun x => x.1 = none → o = none) ?_ fun x _ hx => Post.bind
    (Post.of (addMinutes_raises _ _)) fun _ _ _ => Post.pure ⟨hx, rfl⟩
  cases o with
  | none => exact Post.ok fun _ => rfl
  | some m =>
    obtain ⟨tr, htr⟩ := changeIndicator_total (h m rfl)
    show Post _ _ (changeIndicator m)
    rw [htr]
    exact Post.ok fun h => by simp [groupCode] at h

/-- The exceptions of a METAR trend. -/
def TrendExc (e : Exc) : Prop := VisExc e ∨ e = .overflow

theorem addPeriod_raises {t : TrendIndicator} {g : PyStr} {m : Match}
    (hm : MetarRegExp.TREND_TIME_PERIOD.match g = some m) :
    Raises (fun e => e = .type ∧ t.code = none ∨ e = .overflow) (t.addPeriod m) := by
  unfold TrendIndicator.addPeriod
  obtain ⟨_, _, _, _, hh⟩ := pyInt_group (n := .hour) (b := 24) (by decide +kernel)
    (by decide +kernel) hm
  obtain ⟨_, _, _, _, hn⟩ := pyInt_group (n := .min) (b := 59) (by decide +kernel)
    (by decide +kernel) hm
  refine Raises.bind ?_ fun _ _ => Raises.bind ((addMinutes_raises _ _).mono fun _ h => .inr h)
    fun _ _ => ?_
  · unfold TrendIndicator.extendCode
    split
    · next hc => exact Raises.error (.inl ⟨rfl, hc⟩)
    · exact Raises.ok _
  · rw [hh, ok_bind, hn, ok_bind]
    refine Raises.bind ?_ fun _ _ => ?_
    · unfold TrendIndicator.periodTime
      split
      · exact (addMinutes_raises _ _).mono fun _ h => .inr h
      · split <;> exact (addMinutes_raises _ _).mono fun _ h => .inr h
    · split
      · exact Raises.pure _
      · split <;> exact Raises.pure _

theorem trendHandlers : AllIdx (HandlerOk TrendExc
    (fun k p => CoreRoom 5 8 k p.core) fun _ _ => True) 0 ChangePeriod.handlers := by
  have hind : ∀ k, HandlerOk TrendExc (fun k p => CoreRoom 5 8 k p.core) (fun _ _ => True) k
      ⟨MetarRegExp.TREND_TIME_PERIOD, ChangePeriod.handleTimePeriod⟩ := by
    intro k g m s _ hm h
    unfold ChangePeriod.handleTimePeriod
    refine Post.bind (Post.of ((addPeriod_raises hm).mono ?_)) fun _ _ _ => Post.pure ?_
    · rintro e (⟨rfl, _⟩ | rfl)
      · exact .inl (.inr (.inl rfl))
      · exact .inr rfl
    · exact ⟨h.1.mono, h.2.mono⟩
  have hweather : ∀ k, 5 ≤ k → k < 8 →
      HandlerOk TrendExc (fun k p => CoreRoom 5 8 k p.core) (fun _ _ => True) k
        ⟨MetarRegExp.WEATHER, ChangePeriod.lift Core.handleWeather⟩ :=
    fun k h1 h2 g m s _ _ h => by
      refine ChangePeriod.lift_post (P := CoreRoom 5 8 (k + 1)) (weather_post h h1 h2) ?_
      exact fun _ hc => hc
  have hcloud : ∀ k, 8 ≤ k → k < 12 →
      HandlerOk TrendExc (fun k p => CoreRoom 5 8 k p.core) (fun _ _ => True) k
        ⟨MetarRegExp.CLOUD, ChangePeriod.lift Core.handleCloud⟩ :=
    fun k h1 h2 g m s _ hm h => ChangePeriod.lift_post (cloud_post hm h h1 h2) fun _ hc => hc
  refine ⟨?_, hind _, hind _, ?_, ?_, hweather _ (by omega) (by omega), hweather _ (by omega) (by omega),
    hweather _ (by omega) (by omega), hcloud _ (by omega) (by omega), hcloud _ (by omega) (by omega),
    hcloud _ (by omega) (by omega), hcloud _ (by omega) (by omega), trivial⟩
  · intro g m s _ hm h
    have hs := RE.match_string hm
    unfold ChangePeriod.handleTrendIndicator
    refine Post.bind ((TrendIndicator.new_post fun m' he => ?_).mono (fun _ h => .inr h) fun _ h => h)
      fun _ _ _ => Post.pure ⟨h.1.mono, h.2.mono⟩
    cases he
    rw [hs]
    exact metar_change_head hm
  · exact fun g m s _ hm h => ChangePeriod.lift_post (wind_post windLike_metar hm h) fun _ hc => hc
  · exact fun g m s _ hm h => ChangePeriod.lift_post ((prevailing_post (prevailing_raises visLike_metar hm) h).mono
      (fun _ h => .inl h) fun _ h => h) fun _ hc => hc

theorem ChangePeriod.new_raises (code : PyStr) (t : DT) :
    Raises TrendExc (ChangePeriod.new code t) := by
  unfold ChangePeriod.new
  refine Raises.bind ((TrendIndicator.new_post (o := none) (t := t) fun m h => by cases h).1.mono
    fun _ h => .inr h) fun _ _ => Raises.bind (parseSection_post (fun _ _ h => h.mono) trendHandlers
      (fun _ _ _ => trivial) (CoreRoom.new 5 8)).1 fun _ _ => Raises.pure _

/-! ### METAR -/

structure MetarRoom (k : Nat) (r : Metar) : Prop where
  core : CoreRoom 11 14 k r.core
  ranges : Room 8 3 k r.runwayRanges
  shears : Room 22 3 k r.windshears

theorem MetarRoom.mono {k : Nat} {r : Metar} (h : MetarRoom k r) : MetarRoom (k + 1) r :=
  ⟨h.1.mono, h.2.mono, h.3.mono⟩

theorem metarHandlers (db : Database) (now : Now) (a : Args) {Q : Exc → Prop}
    {G : Nat → PyStr → Prop}
    (htime : ∀ g m, G 2 g → MetarRegExp.TIME.match g = some m →
      Raises Q (Time.fromMetar now (some m) a.year a.month))
    (hvis : ∀ g m, G 6 g → MetarRegExp.VISIBILITY.match g = some m → Raises Q (prevailing m))
    (hmin : ∀ g m, G 7 g → MetarRegExp.MINIMUM_VISIBILITY.match g = some m →
      Raises Q (minimumVisibility m)) :
    AllIdx (HandlerOk Q MetarRoom G) 0 (Metar.handlers db now a) := by
  have hrange : ∀ k, 8 ≤ k → k < 11 → HandlerOk Q MetarRoom G k
      ⟨MetarRegExp.RUNWAY_RANGE, Metar.handleRunwayRange⟩ := by
    intro k h1 h2 g m s _ hm h
    unfold Metar.handleRunwayRange
    exact Post.bind (Post.total (RunwayRange.new_total hm)) fun _ _ _ =>
      Post.bind (h.2.add h1 h2 _) fun _ _ hr => Post.pure ⟨⟨h.1.1.mono, h.1.2.mono⟩, hr, h.3.mono⟩
  have hshear : ∀ k, 22 ≤ k → k < 25 → HandlerOk Q MetarRoom G k
      ⟨MetarRegExp.WINDSHEAR, Metar.handleWindshear⟩ := by
    intro k h1 h2 g m s _ hm h
    unfold Metar.handleWindshear
    exact Post.bind (h.3.add h1 h2 _) fun _ _ hr => Post.pure ⟨⟨h.1.1.mono, h.1.2.mono⟩, h.2.mono, hr⟩
  have hweather : ∀ k, 11 ≤ k → k < 14 → HandlerOk Q MetarRoom G k
      ⟨MetarRegExp.WEATHER, Metar.lift Core.handleWeather⟩ :=
    fun k h1 h2 g m s _ _ h => by
      refine Metar.lift_post (P := CoreRoom 11 14 (k + 1)) (weather_post h.1 h1 h2) ?_
      exact fun _ hc =>
      ⟨hc, h.2.mono, h.3.mono⟩
  have hcloud : ∀ k, 14 ≤ k → k < 18 → HandlerOk Q MetarRoom G k
      ⟨MetarRegExp.CLOUD, Metar.lift Core.handleCloud⟩ :=
    fun k h1 h2 g m s _ hm h => Metar.lift_post (cloud_post hm h.1 h1 h2) fun _ hc =>
      ⟨hc, h.2.mono, h.3.mono⟩
  have hpress : ∀ k, HandlerOk Q MetarRoom G k
      ⟨MetarRegExp.PRESSURE, Metar.handlePressure⟩ := by
    intro k g m s _ hm h
    unfold Metar.handlePressure
    exact Post.bind (Post.total (MetarPressure.new_total hm)) fun _ _ _ =>
      Post.pure ⟨⟨h.1.1.mono, h.1.2.mono⟩, h.2.mono, h.3.mono⟩
  refine ⟨?_, ?_, ?_, ?_, ?_, ?_, ?_, ?_, hrange _ (by omega) (by omega), hrange _ (by omega) (by omega),
    hrange _ (by omega) (by omega), hweather _ (by omega) (by omega), hweather _ (by omega) (by omega),
    hweather _ (by omega) (by omega), hcloud _ (by omega) (by omega), hcloud _ (by omega) (by omega),
    hcloud _ (by omega) (by omega), hcloud _ (by omega) (by omega), ?_, hpress _, hpress _, ?_,
    hshear _ (by omega) (by omega), hshear _ (by omega) (by omega), hshear _ (by omega) (by omega),
    ?_, ?_, trivial⟩
  all_goals intro g m s hg hm h
  all_goals simp only
  · exact Post.ok ⟨⟨h.1.1.mono, h.1.2.mono⟩, h.2.mono, h.3.mono⟩
  · exact Post.pure ⟨⟨h.1.1.mono, h.1.2.mono⟩, h.2.mono, h.3.mono⟩
  · exact Post.bind (Post.of (htime g m hg hm)) fun _ _ _ =>
      Post.pure ⟨⟨h.1.1.mono, h.1.2.mono⟩, h.2.mono, h.3.mono⟩
  · exact Post.ok ⟨⟨h.1.1.mono, h.1.2.mono⟩, h.2.mono, h.3.mono⟩
  · exact Metar.lift_post (wind_post windLike_metar hm h.1) fun _ hc => ⟨hc, h.2.mono, h.3.mono⟩
  · exact Post.bind (Post.total (WindVariation.new_total hm)) fun _ _ _ =>
      Post.pure ⟨⟨h.1.1.mono, h.1.2.mono⟩, h.2.mono, h.3.mono⟩
  · exact Metar.lift_post (prevailing_post (hvis g m hg hm) h.1) fun _ hc => ⟨hc, h.2.mono, h.3.mono⟩
  · exact Post.bind (Post.of (hmin g m hg hm)) fun _ _ _ =>
      Post.pure ⟨⟨h.1.1.mono, h.1.2.mono⟩, h.2.mono, h.3.mono⟩
  · exact Post.bind (Post.total (Temperatures.new_total hm)) fun _ _ _ =>
      Post.pure ⟨⟨h.1.1.mono, h.1.2.mono⟩, h.2.mono, h.3.mono⟩
  · exact Post.ok ⟨⟨h.1.1.mono, h.1.2.mono⟩, h.2.mono, h.3.mono⟩
  · exact Post.bind (Post.total (SeaState.new_total hm)) fun _ _ _ =>
      Post.pure ⟨⟨h.1.1.mono, h.1.2.mono⟩, h.2.mono, h.3.mono⟩
  · exact Post.ok ⟨⟨h.1.1.mono, h.1.2.mono⟩, h.2.mono, h.3.mono⟩

/-- Every exception of the body of a METAR is one of a visibility group or of the time group. -/
theorem Metar.parse_raises (db : Database) (now : Now) (a : Args) (text : PyStr) {r : Metar}
    (h : MetarRoom 0 r) : Raises VisExc (parseSection (Metar.handlers db now a) text r) :=
  (parseSection_post (G := fun _ _ => True) (fun _ _ h => h.mono) (metarHandlers db now a
    (fun _ _ _ _ => (Time.fromMetar_raises _ _ _ _).mono fun _ h => .inl h)
    (fun _ _ _ hm => prevailing_raises visLike_metar hm)
    (fun _ _ _ _ => (minimumVisibility_raises _).mono fun _ h => .inl h))
    (fun _ _ _ => trivial) h).1

theorem Metar.start_room (raw : PyStr) (t : Time) : MetarRoom 0 (Metar.start raw t) :=
  ⟨CoreRoom.new _ _, Room.new _ _, Room.new _ _⟩

theorem add_raises {g : GroupList α} {a : α} : Raises (· = .range) (g.add a) := by
  unfold GroupList.add
  split
  · exact Raises.error rfl
  · exact Raises.ok _

/-- The exceptions of the trends of a METAR. -/
theorem Metar.trendsGo_raises (l : List PyStr) (r : Metar) :
    Raises (fun e => TrendExc e ∨ e = .range) (Metar.trendsGo l r) := by
  induction l generalizing r with
  | nil => exact Raises.ok _
  | cons c cs ih =>
    rw [Metar.trendsGo]
    split
    · refine Raises.bind ?_ fun r' _ => ih r'
      unfold Metar.handleWeatherTrend
      exact Raises.bind ((ChangePeriod.new_raises _ _).mono fun _ h => .inl h) fun _ _ =>
        Raises.bind (add_raises.mono fun _ h => .inr h) fun _ _ => Raises.pure _
    · exact ih r

/-! ### TAF -/

/-- A path of the TAF change indicator that starts with `F` holds day, hour and minute. -/
def fmPath (x : List Step × St) : Bool :=
  headAvoids 70 x.1 ||
    (capsInside x &&
      [(Cap.day, 31), (Cap.hour, 23), (Cap.minute, 59)].all fun (n, b) =>
        match capCls x n with
        | some ks => digitsLe b ks
        | none => false)

theorem taf_change_fm {g : PyStr} {m : Match} (hm : TafRegExp.CHANGE_INDICATOR.match g = some m)
    (hf : startsWith g py!"FM" = true) :
    ∃ d h n, pyInt (m.group .day) = .ok d ∧ pyInt (m.group .hour) = .ok h ∧ h ≤ 23 ∧
      pyInt (m.group .minute) = .ok n ∧ n ≤ 59 := by
  obtain ⟨x, hx, hs, _, hc, hfo⟩ := RE.match_path (by decide +kernel) hm
  have hall : ∀ x ∈ TafRegExp.CHANGE_INDICATOR.paths0, fmPath x = true := by decide +kernel
  have hp := hall x hx
  simp only [fmPath, Bool.or_eq_true, Bool.and_eq_true, List.all_cons, List.all_nil] at hp
  rcases hp with hp | ⟨hi, hd, hh, hn, _⟩
  · exact absurd (startsWith_cons hf) (headAvoids_sound hp hfo)
  · have key : ∀ n b, (match capCls x n with | some ks => digitsLe b ks | none => false) = true →
        ∃ v, pyInt (m.group n) = .ok v ∧ v ≤ b := by
      intro n b h
      have hg := group_of_path hs hc hfo hi n
      rcases hg with ⟨hk, _⟩ | ⟨ks, t, hk, ht, hsh⟩
      · simp [hk] at h
      · rw [hk] at h
        simp only [digitsLe, Bool.and_eq_true, Nat.ble_eq] at h
        have := someDigits_sound h.1 hsh
        exact ⟨digitsVal t, by rw [ht]; exact pyInt_digits this.1 this.2,
          Nat.le_trans (maxVal_sound hsh) h.2⟩
    obtain ⟨d, h1, _⟩ := key _ _ hd
    obtain ⟨h, h2, h3⟩ := key _ _ hh
    obtain ⟨n, h4, h5⟩ := key _ _ hn
    exact ⟨d, h, n, h1, h2, h3, h4, h5⟩

/-- The texts of a probability group. -/
def probTexts : List PyStr := [py!"PROB30", py!"PROB40", py!"PROB30_TEMPO", py!"PROB40_TEMPO"]

def probPath (x : List Step × St) : Bool :=
  headAvoids 80 x.1 ||
    (endsWithEos x.1 && (expand (pathCls x.1)).all fun ks => probTexts.any fun w => ks == litShape w)

theorem taf_change_prob {g : PyStr} {m : Match} (hm : TafRegExp.CHANGE_INDICATOR.match g = some m)
    (hf : startsWith g py!"PROB" = true) (hg : 10 ∉ g) : g ∈ probTexts := by
  obtain ⟨x, hx, hs, _, hc, hfo⟩ := RE.match_path (by decide +kernel) hm
  have hall : ∀ x ∈ TafRegExp.CHANGE_INDICATOR.paths0, probPath x = true := by decide +kernel
  have hp := hall x hx
  simp only [probPath, Bool.or_eq_true, Bool.and_eq_true] at hp
  rcases hp with hp | ⟨he, hp⟩
  · exact absurd (startsWith_cons hf) (headAvoids_sound hp hfo)
  · obtain ⟨ks, hks, hsh⟩ := expand_sound (hfo.whole' he hg)
    have := List.all_eq_true.1 hp ks hks
    simp only [List.any_eq_true, beq_iff_eq] at this
    obtain ⟨w, hw, rfl⟩ := this
    rw [hasShape_lit_iff.1 hsh]
    exact hw

theorem changeIndicator_prob (w : PyStr) (hw : w ∈ probTexts) (m : Match) (h : m.string = w) :
    ∃ tr, changeIndicator m = .ok (groupCode (some m.string), tr) := by
  unfold changeIndicator
  rw [h]
  revert w
  simp only [probTexts, List.mem_cons, List.not_mem_nil, or_false]
  rintro w (rfl | rfl | rfl | rfl) h
  · exact ⟨_, rfl⟩
  · exact ⟨_, rfl⟩
  · exact ⟨_, rfl⟩
  · exact ⟨_, rfl⟩

theorem TafIndicator.new_post {g : PyStr} {m : Match} {v : Valid}
    (hm : TafRegExp.CHANGE_INDICATOR.match g = some m) (hg : 10 ∉ g) :
    Post (· = .overflow) (fun i => i.code ≠ none) (TafIndicator.new (some m) v) := by
  have hs := RE.match_string hm
  unfold TafIndicator.new
  simp only
  split
  · next hf =>
    rw [hs] at hf
    obtain ⟨d, h, n, h1, h2, h3, h4, h5⟩ := taf_change_fm hm hf
    rw [h1, ok_bind, h2, ok_bind, h4, ok_bind]
    refine Post.bind (Post.of (findDay_raises _ _ _)) fun t _ _ => ?_
    refine Post.bind (Post.total (replaceHour_total h3)) fun t _ _ => ?_
    exact Post.bind (Post.total (replaceMinute_total h5)) fun t _ _ => Post.pure (by simp)
  · have : ∃ tr, changeIndicator m = .ok (groupCode (some m.string), tr) := by
      cases hp : startsWith m.string py!"PROB" with
      | false => exact changeIndicator_total hp
      | true => rw [hs] at hp; exact changeIndicator_prob g (taf_change_prob hm hp hg) m hs
    obtain ⟨tr, h⟩ := this
    rw [h, ok_bind]
    exact Post.pure (by simp [groupCode])

/-- The exceptions of a change of a TAF. -/
def ChangeExc (e : Exc) : Prop := VisExc e ∨ e = .overflow ∨ e = .attribute

theorem setValidPeriod_raises {g : PyStr} {m : Match} (hm : TafRegExp.VALID.match g = some m)
    (i : TafIndicator) (t : Time) :
    Raises (fun e => e = .overflow ∨ e = .attribute ∧ i.code = none) (i.setValidPeriod m t) := by
  unfold TafIndicator.setValidPeriod
  refine Raises.bind ((Valid.fromTaf_raises hm _).mono fun _ h => .inl h) fun _ _ => ?_
  split
  · next h => exact Raises.throw (.inr ⟨rfl, h⟩)
  · split <;> exact Raises.pure _

theorem changeHandlers : AllIdx (HandlerOk ChangeExc
    (fun k p => CoreRoom 4 7 k p.core) fun _ g => 10 ∉ g) 0 ChangeForecasted.handlers := by
  have hweather : ∀ k, 4 ≤ k → k < 7 →
      HandlerOk ChangeExc (fun k p => CoreRoom 4 7 k p.core) (fun _ g => 10 ∉ g) k
        ⟨MetarRegExp.WEATHER, ChangeForecasted.lift Core.handleWeather⟩ :=
    fun k h1 h2 g m s _ _ h => by
      refine ChangeForecasted.lift_post (P := CoreRoom 4 7 (k + 1)) (weather_post h h1 h2) ?_
      exact fun _ hc => hc
  have hcloud : ∀ k, 7 ≤ k → k < 11 →
      HandlerOk ChangeExc (fun k p => CoreRoom 4 7 k p.core) (fun _ g => 10 ∉ g) k
        ⟨MetarRegExp.CLOUD, ChangeForecasted.lift Core.handleCloud⟩ :=
    fun k h1 h2 g m s _ hm h => ChangeForecasted.lift_post (cloud_post hm h h1 h2) fun _ hc => hc
  refine ⟨?_, ?_, ?_, ?_, hweather _ (by omega) (by omega), hweather _ (by omega) (by omega),
    hweather _ (by omega) (by omega), hcloud _ (by omega) (by omega), hcloud _ (by omega) (by omega),
    hcloud _ (by omega) (by omega), hcloud _ (by omega) (by omega), trivial⟩
  · intro g m s hg hm h
    exact Post.bind ((TafIndicator.new_post hm hg).mono (fun _ h => .inr (.inl h)) fun _ h => h)
      fun _ _ _ => Post.pure ⟨h.1.mono, h.2.mono⟩
  · intro g m s hg hm h
    exact Post.bind (Post.of ((setValidPeriod_raises hm _ _).mono fun e he =>
        he.elim (fun h => .inr (.inl h)) fun h => .inr (.inr h.1)))
      fun _ _ _ => Post.pure ⟨h.1.mono, h.2.mono⟩
  · exact fun g m s _ hm h => ChangeForecasted.lift_post (wind_post windLike_taf hm h) fun _ hc => hc
  · exact fun g m s _ hm h => ChangeForecasted.lift_post ((prevailing_post (prevailing_raises visLike_metar hm) h).mono
      (fun _ h => .inl h) fun _ h => h) fun _ hc => hc

theorem ChangeForecasted.new_raises {code : PyStr} (hc : 10 ∉ code) (v : Valid) :
    Raises ChangeExc (ChangeForecasted.new code v) := by
  unfold ChangeForecasted.new
  have h1 : 10 ∉ replace code py!"_" py!" " := not_mem_replace (by decide) hc (by decide)
  have h2 : 10 ∉ sanitizeVisibility (sanitizeChangeIndicator (replace code py!"_" py!" ")) :=
    not_mem_sanitizeVisibility (by decide) (by decide)
      (not_mem_sanitizeChangeIndicator (by decide) h1)
  refine Raises.bind (Raises.ok _) fun _ _ => Raises.bind (parseSection_post (fun _ _ h => h.mono)
    changeHandlers (fun g hg _ => not_mem_splitC h2 g hg) (CoreRoom.new 4 7)).1 fun _ _ => Raises.pure _

theorem resetUntil_raises (i : TafIndicator) (t : Time) :
    Raises (fun e => e = .overflow ∨ e = .attribute ∧ i.code = none) (i.resetUntil t) := by
  unfold TafIndicator.resetUntil
  refine Raises.bind ((addMinutes_raises _ _).mono fun _ h => .inl h) fun _ _ => ?_
  split
  · next h => exact Raises.throw (.inr ⟨rfl, h⟩)
  · split <;> exact Raises.pure _

theorem addChangeGo_raises (t : Time) (rest : List ChangeForecasted) (last : ChangeForecasted)
    (temp : List ChangeForecasted) :
    Raises (fun e => e = .overflow ∨ e = .attribute ∧ ∃ c ∈ last :: rest, c.indicator.code = none)
      (addChangeGo t rest last temp) := by
  induction rest generalizing last temp with
  | nil =>
    unfold addChangeGo
    split
    · next h => exact Raises.error (.inr ⟨rfl, last, by simp, h⟩)
    · next c hc =>
      split
      · exact Raises.ok _
      · split
        · split
          · next e he =>
            refine Raises.error ?_
            rcases resetUntil_raises _ _ _ he with h | ⟨_, h⟩
            · exact .inl h
            · rw [hc] at h; cases h
          · exact Raises.ok _
        · exact Raises.ok _
  | cons l rest ih =>
    unfold addChangeGo
    split
    · next h => exact Raises.error (.inr ⟨rfl, last, by simp, h⟩)
    · next c hc =>
      split
      · refine (ih l (temp ++ [last])).mono fun e he => ?_
        rcases he with h | ⟨h, x, hx, hn⟩
        · exact .inl h
        · exact .inr ⟨h, x, by simp at hx; simp [hx], hn⟩
      · split
        · split
          · next e he =>
            refine Raises.error ?_
            rcases resetUntil_raises _ _ _ he with h | ⟨_, h⟩
            · exact .inl h
            · rw [hc] at h; cases h
          · exact Raises.ok _
        · exact Raises.ok _

theorem addAll_raises (g : GroupList α) (l : List α) : Raises (· = .range) (addAll g l) := by
  induction l generalizing g with
  | nil => exact Raises.ok _
  | cons a as ih =>
    unfold addAll
    split
    · next he => exact Raises.error (add_raises _ he)
    · exact ih _

theorem addChange_raises (g : GroupList ChangeForecasted) (c : ChangeForecasted) :
    Raises (fun e => e = .overflow ∨ e = .attribute ∧ (∃ c ∈ g.list, c.indicator.code = none) ∨
      e = .range) (addChange g c) := by
  unfold addChange
  split
  · exact add_raises.mono fun _ h => .inr (.inr h)
  · next last rest hr =>
    split
    · split
      · next e he =>
        refine Raises.error ?_
        rcases addChangeGo_raises _ _ _ _ _ he with h | ⟨h, x, hx, hn⟩
        · exact .inl h
        · refine .inr (.inl ⟨h, x, ?_, hn⟩)
          rw [← hr] at hx
          simpa using hx
      · split
        · next he => exact Raises.error (.inr (.inr (addAll_raises _ _ _ he)))
        · exact add_raises.mono fun _ h => .inr (.inr h)
    · exact add_raises.mono fun _ h => .inr (.inr h)

/-- The exceptions of the changes of a TAF. -/
theorem Taf.changesGo_raises {l : List PyStr} (hl : ∀ c ∈ l, 10 ∉ c) (r : Taf) :
    Raises (fun e => ChangeExc e ∨ e = .range) (Taf.changesGo l r) := by
  induction l generalizing r with
  | nil => exact Raises.ok _
  | cons c cs ih =>
    have ih := ih fun x hx => hl x (by simp [hx])
    rw [Taf.changesGo]
    split
    · refine Raises.bind ?_ fun r' _ => ih r'
      unfold Taf.handleChange
      refine Raises.bind ((ChangeForecasted.new_raises (hl c (by simp)) _).mono fun _ h => .inl h)
        fun _ _ => Raises.bind ((addChange_raises _ _).mono ?_) fun _ _ => Raises.pure _
      rintro e (h | ⟨h, _⟩ | h)
      · exact .inl (.inr (.inl h))
      · exact .inl (.inr (.inr h))
      · exact .inr h
    · exact ih r

/-- The exceptions of the body of a TAF. -/
def TafBodyExc (e : Exc) : Prop := VisExc e ∨ e = .overflow ∨ e = .range

structure TafRoom (k : Nat) (r : Taf) : Prop where
  core : CoreRoom 9 12 k r.core

theorem TafRoom.mono {k : Nat} {r : Taf} (h : TafRoom k r) : TafRoom (k + 1) r := ⟨h.1.mono⟩

theorem tafHandlers (db : Database) (now : Now) (a : Args) :
    AllIdx (HandlerOk TafBodyExc TafRoom fun _ _ => True) 0 (Taf.handlers db now a) := by
  have hweather : ∀ k, 9 ≤ k → k < 12 → HandlerOk TafBodyExc TafRoom (fun _ _ => True) k
      ⟨MetarRegExp.WEATHER, Taf.lift Core.handleWeather⟩ :=
    fun k h1 h2 g m s _ _ h => by
      refine Taf.lift_post (P := CoreRoom 9 12 (k + 1)) (weather_post h.1 h1 h2) ?_
      exact fun _ hc => ⟨hc⟩
  have hcloud : ∀ k, 12 ≤ k → k < 16 → HandlerOk TafBodyExc TafRoom (fun _ _ => True) k
      ⟨MetarRegExp.CLOUD, Taf.lift Core.handleCloud⟩ :=
    fun k h1 h2 g m s _ hm h => Taf.lift_post (cloud_post hm h.1 h1 h2) fun _ hc => ⟨hc⟩
  have htemp : ∀ k, HandlerOk TafBodyExc TafRoom (fun _ _ => True) k
      ⟨TafRegExp.TEMPERATURE, Taf.handleTemperature⟩ := by
    intro k g m s _ hm h
    unfold Taf.handleTemperature
    refine Post.bind (Post.of ((TafTemperature.new_raises hm _).mono fun _ h => .inr (.inl h)))
      fun _ _ _ => ?_
    split
    · exact Post.bind (Post.of (add_raises.mono fun _ h => .inr (.inr h))) fun _ _ _ =>
        Post.pure ⟨⟨h.1.1.mono, h.1.2.mono⟩⟩
    · exact Post.bind (Post.of (add_raises.mono fun _ h => .inr (.inr h))) fun _ _ _ =>
        Post.pure ⟨⟨h.1.1.mono, h.1.2.mono⟩⟩
  refine ⟨?_, ?_, ?_, ?_, ?_, ?_, ?_, ?_, ?_, hweather _ (by omega) (by omega),
    hweather _ (by omega) (by omega), hweather _ (by omega) (by omega), hcloud _ (by omega) (by omega),
    hcloud _ (by omega) (by omega), hcloud _ (by omega) (by omega), hcloud _ (by omega) (by omega),
    htemp _, htemp _, htemp _, htemp _, trivial⟩
  all_goals intro g m s _ hm h
  all_goals simp only
  · exact Post.ok ⟨⟨h.1.1.mono, h.1.2.mono⟩⟩
  · exact Post.ok ⟨⟨h.1.1.mono, h.1.2.mono⟩⟩
  · exact Post.pure ⟨⟨h.1.1.mono, h.1.2.mono⟩⟩
  · exact Post.bind (Post.of ((Time.fromMetar_raises _ _ _ _).mono fun _ h => .inl (.inl h)))
      fun _ _ _ => Post.pure ⟨⟨h.1.1.mono, h.1.2.mono⟩⟩
  · exact Post.ok ⟨⟨h.1.1.mono, h.1.2.mono⟩⟩
  · exact Post.bind (Post.of ((Valid.fromTaf_raises hm _).mono fun _ h => .inr (.inl h)))
      fun _ _ _ => Post.pure ⟨⟨h.1.1.mono, h.1.2.mono⟩⟩
  · exact Post.ok ⟨⟨h.1.1.mono, h.1.2.mono⟩⟩
  · exact Taf.lift_post (wind_post windLike_taf hm h.1) fun _ hc => ⟨hc⟩
  · exact Taf.lift_post ((prevailing_post (prevailing_raises visLike_taf hm) h.1).mono (fun _ h => .inl h) fun _ h => h)
      fun _ hc => ⟨hc⟩

theorem Taf.parse_raises (db : Database) (now : Now) (a : Args) (text : PyStr) {r : Taf}
    (h : TafRoom 0 r) : Raises TafBodyExc (parseSection (Taf.handlers db now a) text r) :=
  (parseSection_post (fun _ _ h => h.mono) (tafHandlers db now a) (fun _ _ _ => trivial) h).1

theorem Taf.start_room (raw : PyStr) (t : Time) (v : Valid) : TafRoom 0 (Taf.start raw t v) :=
  ⟨CoreRoom.new _ _⟩

end Verif
