import Verif.Props.TafBody

/-
C51: the text of a TAF record is parsed into a report that says what the record states.
-/

namespace Verif.Props
open Spec MetarRegExp

/-! ### What the report says -/

/-- The `k`th of the changes `xs` of a report with the period `v` says what the change `c` at that
position of `cs` states. -/
structure ChangeSaid (v : Valid) (cs : List TafChange) (xs : List ChangeForecasted) (k : Nat) (c : TafChange)
    (x : ChangeForecasted) : Prop where
  code : x.code = join [32] c.words
  indicator : x.indicator.code = some c.indicatorText
  /-- A change with a period begins when the period does. -/
  from_ : ∀ w, c.valid = some w →
    Takes v.from_.time w.fromDay (digitsVal w.fromHour) x.indicator.valid.from_.time
  /-- An FM change begins at the instant it states. -/
  fm : ∀ g, c.kind = .fm g → g.At v.from_.time x.indicator.valid.from_.time
  until_ : ∀ w, c.valid = some w →
    Takes v.from_.time w.untilDay (digitsVal w.untilHour) x.indicator.valid.until_.time
  /-- Any other change without period has that of the report. -/
  whole : c.valid = none → (∀ g, c.kind ≠ .fm g) → x.indicator.valid = v
  /-- The next FM or BECMG change ends an FM change, one hour before it begins. -/
  ended : ∀ g, c.kind = .fm g → ∀ j d y, k < j → cs[j]? = some d → d.kind.Ends →
    (∀ i b, k < i → i < j → cs[i]? = some b → ¬ b.kind.Ends) → xs[j]? = some y →
    After y.indicator.valid.from_.time (-60) x.indicator.valid.until_.time
  /-- Without one, an FM change lasts as long as the report. -/
  lasts : ∀ g, c.kind = .fm g → (∀ j d, k < j → cs[j]? = some d → ¬ d.kind.Ends) →
    x.indicator.valid.until_ = v.until_
  conds : CondSaid visGrammar c.conds x.core
  unparsed : x.unparsed = []

/-- The report says what the record states, and nothing else. -/
structure TafSaidBy (db : Database) (t : DT) (w : TafRecord) (r : Taf) : Prop where
  type : r.type.code = some py!"TAF"
  modifier : r.modifier.code = w.modifier
  station : StationOf db w.station r.station
  time : r.time.time = t
  missing : r.missing.isMissing = w.missing
  valid : ∀ g, w.valid = some g → (validGrammar t).Says g r.valid
  noValid : w.valid = none → r.valid.code = none
  cancelled : r.cancelled.isCancelled = w.cancelled
  conds : CondSaid tafVisGrammar w.conds r.core
  max : Each (fun g x => TafTempGroup.Says g t x) (w.temps.filter (·.max)) r.maxTemperatures.list
  min : Each (fun g x => TafTempGroup.Says g t x) (w.temps.filter (!·.max)) r.minTemperatures.list
  count : r.changes.list.length = w.changes.length
  changes : ∀ k c x, w.changes[k]? = some c → r.changes.list[k]? = some x →
    ChangeSaid r.valid w.changes r.changes.list k c x

/-! ### The changes -/

theorem each_get {α β : Type} {R : α → β → Prop} {as : List α} {bs : List β} (h : Each R as bs) {k : Nat} {a : α}
    (hk : as[k]? = some a) : ∃ b, bs[k]? = some b ∧ R a b := by
  induction h generalizing k with
  | nil => simp at hk
  | @cons a' b' as bs h1 _ ih =>
    cases k with
    | zero => simp at hk; exact ⟨b', by simp, hk ▸ h1⟩
    | succ k => simpa using ih (by simpa using hk)

theorem each_get' {α β : Type} {R : α → β → Prop} {as : List α} {bs : List β} (h : Each R as bs) {k : Nat} {b : β}
    (hk : bs[k]? = some b) : ∃ a, as[k]? = some a ∧ R a b := by
  have := h.length
  have hlt := (List.getElem?_eq_some_iff.1 hk).1
  obtain ⟨b', h1, h2⟩ := each_get h (List.getElem?_eq_getElem (by omega : k < as.length))
  rw [hk] at h1
  cases h1
  exact ⟨_, List.getElem?_eq_getElem (by omega), h2⟩

theorem words_begin (c : TafChange) : ∃ rest, join [32] c.words = c.kind.text ++ rest := by
  unfold TafChange.words ChangeKind.text
  cases hr : c.rest with
  | nil => exact ⟨[], by simp⟩
  | cons w ws =>
    have hw : w :: ws ≠ [] := by simp
    refine ⟨32 :: join [32] (w :: ws), ?_⟩
    cases c.kind with
    | tempo => exact join_cons_ne hw
    | becmg => exact join_cons_ne hw
    | fm g => exact (join_cons_ne (sep := [32]) (w := g.text) hw).trans (by simp [ChangeKind.words, join])
    | prob f t =>
      cases t
      · exact (join_cons_ne (sep := [32]) (w := if f then py!"PROB40" else py!"PROB30") hw).trans
          (by simp [ChangeKind.words, join])
      · simp only [ChangeKind.words, if_true, List.cons_append, List.nil_append]
        rw [join_cons_ne (w := if f then py!"PROB40" else py!"PROB30") (by simp), join_cons_ne (w := py!"TEMPO") hw,
          join_cons_ne (w := if f then py!"PROB40" else py!"PROB30") (by simp)]
        simp [join]

theorem indicator_begin (c : TafChange) : ∃ rest, c.indicatorText = c.kind.text ++ rest := by
  unfold TafChange.indicatorText
  cases c.valid with
  | none => exact ⟨[], by simp⟩
  | some v => exact ⟨_, rfl⟩

/-- The first letter of an opening. -/
def ChangeKind.letter : ChangeKind → Nat
  | .tempo => 84
  | .becmg => 66
  | .prob _ _ => 80
  | .fm _ => 70

theorem text_letter (k : ChangeKind) : k.text.head? = some (ChangeKind.letter k) := by
  cases k with
  | tempo => rfl
  | becmg => rfl
  | prob f t => cases f <;> cases t <;> rfl
  | fm g => simp [ChangeKind.text, ChangeKind.words, join, FmGroup.text, ChangeKind.letter]

theorem begins_letter {k : ChangeKind} {c : Nat} {p rest : PyStr} (h : Begins (c :: p) (k.text ++ rest)) :
    ChangeKind.letter k = c := by
  obtain ⟨r, e⟩ := h
  have h1 := text_letter k
  have h2 : (k.text ++ rest).head? = some (ChangeKind.letter k) := by
    rw [List.head?_append, h1]; rfl
  rw [e] at h2
  simpa using h2.symm

theorem text_fm (k : ChangeKind) (g : FmGroup) (h : k = .fm g) : ∃ rest, k.text = py!"FM" ++ rest := by
  subst h
  exact ⟨padNat 2 g.day ++ g.hour ++ g.minute, by simp [ChangeKind.text, ChangeKind.words, join, FmGroup.text]⟩

theorem ending_kind {c : TafChange} {x : ChangeForecasted} (h : x.code = join [32] c.words) :
    Ending x ↔ c.kind.Ends := by
  obtain ⟨rest, e⟩ := words_begin c
  unfold Ending
  rw [h, e]
  constructor
  · intro hb
    have hl : ChangeKind.letter c.kind = 70 ∨ ChangeKind.letter c.kind = 66 := hb.imp begins_letter begins_letter
    cases hk : c.kind with
    | becmg => trivial
    | fm g => trivial
    | tempo => rw [hk] at hl; simp [ChangeKind.letter] at hl
    | prob _ _ => rw [hk] at hl; simp [ChangeKind.letter] at hl
  · intro he
    cases hk : c.kind with
    | becmg => exact .inr ⟨rest, rfl⟩
    | fm g =>
      obtain ⟨r, e2⟩ := text_fm _ g hk
      exact .inl ⟨r ++ rest, by rw [← hk, e2]; simp⟩
    | tempo => rw [hk] at he; exact he.elim
    | prob _ _ => rw [hk] at he; exact he.elim

theorem passing_kind {c : TafChange} {x : ChangeForecasted} (h : x.indicator.code = some c.indicatorText) :
    Passing x ↔ ¬ c.kind.Ends := by
  obtain ⟨rest, e⟩ := indicator_begin c
  unfold Passing IndicatorBegins
  simp only [h, Option.some.injEq, exists_eq_left', e]
  constructor
  · intro hb he
    have hl : ChangeKind.letter c.kind = 80 ∨ ChangeKind.letter c.kind = 84 := hb.imp begins_letter begins_letter
    cases hk : c.kind with
    | becmg => rw [hk] at hl; simp [ChangeKind.letter] at hl
    | fm g => rw [hk] at hl; simp [ChangeKind.letter] at hl
    | tempo => rw [hk] at he; exact he
    | prob _ _ => rw [hk] at he; exact he
  · intro he
    cases hk : c.kind with
    | becmg => rw [hk] at he; exact (he trivial).elim
    | fm g => rw [hk] at he; exact (he trivial).elim
    | tempo => exact .inr ⟨rest, rfl⟩
    | prob f t =>
      refine .inl ?_
      cases f <;> cases t <;> exact ⟨_, rfl⟩

theorem fm_kind {c : TafChange} {x : ChangeForecasted} (h : x.indicator.code = some c.indicatorText) :
    IndicatorBegins py!"FM" x ↔ ∃ g, c.kind = .fm g := by
  obtain ⟨rest, e⟩ := indicator_begin c
  unfold IndicatorBegins
  simp only [h, Option.some.injEq, exists_eq_left', e]
  constructor
  · intro hb
    have hl := begins_letter hb
    cases hk : c.kind with
    | fm g => exact ⟨g, rfl⟩
    | becmg => rw [hk] at hl; cases hl
    | tempo => rw [hk] at hl; cases hl
    | prob _ _ => rw [hk] at hl; cases hl
  · rintro ⟨g, hk⟩
    obtain ⟨r, e2⟩ := text_fm _ g hk
    exact ⟨r ++ rest, by rw [e2]; simp⟩

/-- The changes of a report from the changes of a record. -/
theorem changes_said {cs : List TafChange} (h : ∀ c ∈ cs, c.WF) {v : Valid} (hv : v.from_.time.valid = true)
    (hy : v.from_.time.year < 9999) {xs0 xs : List ChangeForecasted}
    (he : Each (fun t c => ChangeForecasted.new t v = .ok c) (cs.map changeCode) xs0) (hb : Built xs0 xs) :
    xs.length = cs.length ∧
    ∀ k c x, cs[k]? = some c → xs[k]? = some x → ChangeSaid v cs xs k c x := by
  have hlen := he.length
  rw [List.length_map] at hlen
  refine ⟨by rw [hb.1, hlen], ?_⟩
  -- every change before later ones change it
  have first : ∀ {k : Nat} {c : TafChange}, cs[k]? = some c → ∃ x0 : ChangeForecasted, xs0[k]? = some x0 ∧ x0.code = join [32] c.words ∧
      x0.unparsed = [] ∧ x0.indicator.code = some c.indicatorText ∧ ChangeSays v c x0.indicator.valid ∧
      CondSaid visGrammar c.conds x0.core := by
    intro k c hk
    obtain ⟨x0, h1, h2⟩ := each_get he (k := k) (a := changeCode c) (by rw [List.getElem?_map, hk]; rfl)
    obtain ⟨x, h3, h4⟩ := change_new (h c (List.mem_of_getElem? hk)) hv hy
    have := Except.ok.inj (h3.symm.trans h2)
    subst this
    exact ⟨x, h1, h4⟩
  have back : ∀ {k : Nat} {x0 : ChangeForecasted}, xs0[k]? = some x0 → ∃ c, cs[k]? = some c := by
    intro k x0 hk
    have hlt := (List.getElem?_eq_some_iff.1 hk).1
    exact ⟨_, List.getElem?_eq_getElem (by omega)⟩
  have ends : ∀ {j : Nat} {y : ChangeForecasted} {d : TafChange}, xs0[j]? = some y → cs[j]? = some d → (Ending y ↔ d.kind.Ends) ∧ (Passing y ↔ ¬ d.kind.Ends) ∧
      (IndicatorBegins py!"FM" y ↔ ∃ g, d.kind = .fm g) := by
    intro j y d hj hd
    obtain ⟨x0, e1, e2, -, e4, -⟩ := first hd
    rw [hj] at e1
    cases e1
    exact ⟨ending_kind e2, passing_kind e4, fm_kind e4⟩
  -- when an FM change is closed
  have closed : ∀ {k j : Nat} {c : TafChange}, cs[k]? = some c → (ClosedBy xs0 k j ↔ (∃ g, c.kind = .fm g) ∧ k < j ∧
      (∃ d, cs[j]? = some d ∧ d.kind.Ends) ∧ ∀ i b, k < i → i < j → cs[i]? = some b → ¬ b.kind.Ends) := by
    intro k j c hk
    obtain ⟨x0, e1, -⟩ := first hk
    constructor
    · rintro ⟨h1, ⟨y, h2, h3⟩, ⟨x1, h4, h5⟩, h6⟩
      rw [e1] at h4
      cases h4
      obtain ⟨d, hd⟩ := back h2
      refine ⟨(ends e1 hk).2.2.1 h5, h1, ⟨d, hd, (ends h2 hd).1.1 h3⟩, fun i b hi hj hb => ?_⟩
      obtain ⟨z, hz, -⟩ := first hb
      exact (ends hz hb).2.1.1 (h6 i z hi hj hz)
    · rintro ⟨h1, h2, ⟨d, h3, h4⟩, h5⟩
      obtain ⟨y, hy, -⟩ := first h3
      refine ⟨h2, ⟨y, hy, (ends hy h3).1.2 h4⟩, ⟨x0, e1, (ends e1 hk).2.2.2 h1⟩, fun i z hi hj hz => ?_⟩
      obtain ⟨b, hb⟩ := back hz
      exact (ends hz hb).2.1.2 (h5 i b hi hj hb)
  intro k c x hk hx
  have hc := h c (List.mem_of_getElem? hk)
  obtain ⟨x0, e1, e2, e3, e4, e5, e6⟩ := first hk
  obtain ⟨x', f1, ⟨s1, s2, s3, s4, s5, s6⟩, f3, f4⟩ := hb.2 k x0 e1
  rw [hx] at f1
  cases f1
  have same : (∀ g, c.kind ≠ .fm g) → x.indicator = x0.indicator := by
    intro hno
    refine f3 fun j hj => ?_
    obtain ⟨⟨g, hg⟩, -⟩ := (closed hk).1 hj
    exact hno g hg
  refine ⟨by rw [s1, e2], by rw [s5, e4], fun w hw => ?_, fun g hg => ?_, fun w hw => ?_, fun hn hno => ?_,
    fun g hg j d y hj hd hde hbe hy' => ?_, fun g hg hno => ?_, ?_, by rw [s3, e3]⟩
  · rw [s6]
    unfold ChangeSays at e5
    rw [hw] at e5
    exact e5.1
  · rw [s6]
    unfold ChangeSays at e5
    rw [(hc.fm g hg).2, hg] at e5
    exact e5.1
  · have hno : ∀ g, c.kind ≠ .fm g := by
      intro g hg
      have := (hc.fm g hg).2
      rw [hw] at this
      cases this
    rw [same hno]
    unfold ChangeSays at e5
    rw [hw] at e5
    exact e5.2
  · rw [same hno]
    unfold ChangeSays at e5
    rw [hn] at e5
    cases hkind : c.kind with
    | fm g => exact absurd hkind (hno g)
    | tempo => rw [hkind] at e5; exact e5
    | becmg => rw [hkind] at e5; exact e5
    | prob _ _ => rw [hkind] at e5; exact e5
  · have hcl := (closed (j := j) hk).2 ⟨⟨g, hg⟩, hj, ⟨d, hd, hde⟩, hbe⟩
    have hlast : ∀ j', j < j' → ¬ ClosedBy xs0 k j' := by
      intro j' hjj hcl'
      obtain ⟨-, -, -, h4⟩ := (closed hk).1 hcl'
      exact h4 j d hj hjj hd hde
    obtain ⟨y0, g1, -⟩ := first hd
    obtain ⟨t, h1, h2⟩ := f4 j y0 g1 hcl hlast
    obtain ⟨y', k1, ⟨-, -, -, -, -, k6⟩, -⟩ := hb.2 j y0 g1
    rw [hy'] at k1
    cases k1
    rw [h2, k6]
    exact h1
  · have hno' : ∀ j, ¬ ClosedBy xs0 k j := by
      intro j hj
      obtain ⟨-, h2, ⟨d, h3, h4⟩, -⟩ := (closed hk).1 hj
      exact hno j d h2 h3 h4
    rw [f3 hno']
    unfold ChangeSays at e5
    rw [(hc.fm g hg).2, hg] at e5
    exact e5.2
  · rw [s4]
    exact ⟨e6.wind, e6.vis, e6.weathers, e6.clouds⟩

/-! ### The body -/

/-- What the methods leave as time and period. -/
theorem taf_period {db : Database} {now : Now} {a : Args} {y mo : Nat} {w : TafRecord} (h : w.WF)
    (hy : a.year.getD now.year = (y : Int)) (hmo : a.month.getD now.month = (mo : Int)) (hy1 : 1000 ≤ y)
    (ht : IsTime ⟨y, mo, w.day, w.hour, w.minute⟩) {r0 r : Taf}
    (hR : Taf.Reading db now a (tafPlacesOf w) r0 r) :
    r.time.time = ⟨y, mo, w.day, w.hour, w.minute⟩ ∧
    ∀ g, w.valid = some g → (validGrammar ⟨y, mo, w.day, w.hour, w.minute⟩).Says g r.valid := by
  have hT := taf_taken h
  have h1 : r.time.time = ⟨y, mo, w.day, w.hour, w.minute⟩ := by
    rcases hR.time with ⟨g, m, hg, hm, hx⟩ | ⟨hg, -⟩
    · rw [mem_taken, hT.time, List.mem_singleton] at hg
      subst hg
      obtain ⟨c, e⟩ := time_reads hy hmo hy1 ht hm
      have := e.symm.trans hx
      rw [← Except.ok.inj this]
    · exact absurd (mem_taken.2 (by rw [hT.time]; simp)) (hg (timeText w.day w.hour w.minute))
  refine ⟨h1, fun g hg => ?_⟩
  rcases hR.valid with ⟨g', m, hg', hm, hx⟩ | ⟨hg', -⟩
  · rw [mem_taken, hT.valid, hg] at hg'
    simp only [Option.toList_some, List.map_cons, List.map_nil, List.mem_singleton] at hg'
    subst hg'
    obtain ⟨m', k1, k2⟩ := (valid_reads ((isTime_iff _).1 ht)).1 g (h.valid g hg)
    change TafRegExp.VALID.match g.text = _ at k1
    rw [hm] at k1
    cases k1
    exact k2 _ (h1 ▸ hx)
  · exact absurd (mem_taken.2 (by rw [hT.valid, hg]; simp)) (hg' g.text)

/-- The temperatures of a record. -/
theorem temps_said {t : DT} (ht : t.valid = true) {ws : List TafTempGroup} (h : ∀ w ∈ ws, w.WF)
    {ts : List (Bool × TafTemperature)}
    (he : Each (fun g x => ∃ m, TafRegExp.TEMPERATURE.match g = some m ∧ tafTagged t m = .ok x)
      (ws.map TafTempGroup.text) ts) :
    Each (fun (g : TafTempGroup) x => g.Says t x) (ws.filter (·.max)) ((ts.filter (·.1)).map (·.2)) ∧
    Each (fun (g : TafTempGroup) x => g.Says t x) (ws.filter (!·.max)) ((ts.filter (!·.1)).map (·.2)) := by
  induction ws generalizing ts with
  | nil => cases he; exact ⟨.nil, .nil⟩
  | cons w ws ih =>
    cases he with
    | @cons _ y _ ys h1 h2 =>
      obtain ⟨i1, i2⟩ := ih (fun v hv => h v (List.mem_cons_of_mem _ hv)) h2
      obtain ⟨m, hm, hx⟩ := h1
      obtain ⟨m', k1, -, k2⟩ := tafTemp_match w (h w (by simp))
      rw [hm] at k1
      cases k1
      obtain ⟨j1, j2, -⟩ := (tafTemp_new (h w (by simp)) k2 ht).1 y hx
      rw [List.filter_cons, List.filter_cons, List.filter_cons, List.filter_cons, j1]
      cases w.max with
      | true => exact ⟨.cons j2 i1, i2⟩
      | false => exact ⟨i1, .cons j2 i2⟩

theorem flag_of {c : List (PyStr × Nat)} {i : Nat} {b b' : Bool} {t : PyStr}
    (h : b' = true ↔ (t, i) ∈ c) (ht : taken c i i = if b then [t] else []) : b' = b := by
  rw [mem_taken, ht] at h
  cases b with
  | true => exact h.2 (by simp)
  | false => simpa using h

/-- What a report whose body and changes are those of a record says. -/
theorem taf_said {db : Database} {clock : Clock} {a : Args} {y mo : Nat} {w : TafRecord} (h : w.WF)
    (hy : a.year.getD (clock 1).year = (y : Int)) (hmo : a.month.getD (clock 1).month = (mo : Int))
    (hy1 : 1000 ≤ y) (hy2 : y < 9998) (ht : IsTime ⟨y, mo, w.day, w.hour, w.minute⟩) {code : PyStr} {r : Taf}
    (hr : Taf.new db clock code a = .ok r)
    (hcode : tafSections (normalizeCode code) = (join [32] (py!"TAF" :: w.body), w.changes.map changeCode)) :
    TafSaidBy db ⟨y, mo, w.day, w.hour, w.minute⟩ w r := by
  have hdom : (1 ≤ w.day ∧ w.day ≤ 31) ∧ w.hour ≤ 23 ∧ w.minute ≤ 59 :=
    ⟨⟨ht.day.1, isTime_day ht⟩, ht.hour, ht.minute⟩
  have htv := (isTime_iff _).1 ht
  obtain ⟨-, hb, hcs⟩ := Taf.new_sections hr
  rw [hcode] at hb hcs
  have hd : Decodes (Taf.handlers db (clock 1) a) (bodyGroups r.body) (tafPlacesOf w) := by
    rw [hb]
    exact (taf_decodes (text := sanitizeVisibility _) h hdom (taf_groups h hdom)).1
  have hT := taf_taken h
  obtain ⟨q0, q1, -, -, -, q5, -⟩ := C53_taf_codes db clock code a r hr _ hd
  obtain ⟨_, _, -, -, -, hR, -⟩ := Taf.new_decodes hr hd
  obtain ⟨htime, hval⟩ := taf_period h hy hmo hy1 ht hR
  obtain ⟨n1, n2⟩ := C48_nil_cnl db clock code a r hr _ hd
  have htemps : Each (fun (g : TafTempGroup) x => g.Says ⟨y, mo, w.day, w.hour, w.minute⟩ x)
        (w.temps.filter (·.max)) r.maxTemperatures.list ∧
      Each (fun (g : TafTempGroup) x => g.Says ⟨y, mo, w.day, w.hour, w.minute⟩ x)
        (w.temps.filter (!·.max)) r.minTemperatures.list := by
    obtain ⟨ts, t1, t2, t3⟩ := hR.temperatures
    rw [t2, t3]
    unfold FromGroups at t1
    rw [hT.temps, htime] at t1
    exact temps_said htv h.temps t1
  have hchanges : r.changes.list.length = w.changes.length ∧ ∀ k c x, w.changes[k]? = some c →
      r.changes.list[k]? = some x → ChangeSaid r.valid w.changes r.changes.list k c x := by
    obtain ⟨cs0, e1, e2⟩ := C46_report db clock code a r hr
    by_cases hno : w.changes = []
    · rw [hcs, hno] at e1
      simp only [List.map_nil, List.filter_nil] at e1
      cases e1
      rw [hno]
      have := e2.1
      refine ⟨this, fun k c x hk => ?_⟩
      simp at hk
    · have hne : ∀ c ∈ w.changes.map changeCode, c ≠ [] := by
        intro c hc
        obtain ⟨d, hd, rfl⟩ := List.mem_map.1 hc
        exact changeCode_ne d
      rw [hcs, List.filter_eq_self.2 fun c hc => by simpa using hne c hc] at e1
      cases hv : w.valid with
      | none => exact absurd hv (h.period hno)
      | some g =>
        obtain ⟨s1, -, -⟩ := hval g hv
        have hg := (h.valid g hv).2.1.le
        obtain ⟨v1, v2, v3⟩ := takes_year htv (by omega) s1
        exact changes_said (h.changes.2) v1 (by simp only at v3; omega) e1 e2
  refine ⟨?_, ?_, ?_, htime, flag_of n1 hT.missing, hval, fun hn => ?_, flag_of n2 hT.cancelled,
    ⟨?_, ?_, ?_, ?_⟩, htemps.1, htemps.2, hchanges.1, hchanges.2⟩
  · rw [(code_of q0 (o := some _) hT.type).2 _ rfl]
    decide
  · cases hm : w.modifier with
    | none => exact (code_of q1 hT.modifier).1 hm
    | some g =>
      rw [(code_of q1 hT.modifier).2 g hm]
      rcases h.modifier g hm with rfl | rfl <;> decide
  · rcases (C54_report db clock code a).2 r _ hr hd with ⟨g, hg, hs⟩ | ⟨hg, -⟩
    · rw [mem_taken, hT.station, List.mem_singleton] at hg
      exact hg ▸ hs
    · exact absurd (mem_taken.2 (by rw [hT.station]; simp)) (hg w.station)
  · refine (code_of q5 (o := none) ?_).1 rfl
    rw [hT.valid, hn]; rfl
  · exact held_of ((C16_reports db clock code a).2.2.1 r _ hr hd) hT.wind fun v hv =>
      ⟨h.conds.wind v hv, h.wind v hv⟩
  · obtain ⟨-, v1, v2⟩ := C21_taf db clock code a r hr _ hd
    cases hv : w.conds.vis with
    | none => exact v2 fun g hg => by rw [mem_taken, hT.vis, hv] at hg; simp at hg
    | some v => exact v1 v (h.vis v hv) (mem_taken.2 (by rw [hT.vis, hv]; simp))
  · have := (C26_reports db clock code a).2.2.1 r _ hr hd
    rw [ReadAll, hT.weathers] at this
    exact each_of this fun _ _ => trivial
  · have := (C27_reports db clock code a).2.2.1 r _ hr hd
    rw [ReadAll, hT.clouds] at this
    exact each_of this h.conds.clouds.2

/-- Any text that normalises to the words of a record. -/
theorem taf_code (db : Database) (clock : Clock) (a : Args) (w : TafRecord) (y mo : Nat) (hs : Sane clock)
    (hy : a.year.getD (clock 1).year = (y : Int)) (hmo : a.month.getD (clock 1).month = (mo : Int))
    (hy1 : 1000 ≤ y) (hy2 : y < 9998) (hw : w.WF) (ht : IsTime ⟨y, mo, w.day, w.hour, w.minute⟩) (code : PyStr)
    (hcode : normalizeCode code = join [32] w.words) :
    ∃ r, Taf.new db clock code a = .ok r ∧
      TafSaidBy db ⟨y, mo, w.day, w.hour, w.minute⟩ w r ∧ r.unparsed = [] := by
  have hdom : (1 ≤ w.day ∧ w.day ≤ 31) ∧ w.hour ≤ 23 ∧ w.minute ≤ 59 :=
    ⟨⟨ht.day.1, isTime_day ht⟩, ht.hour, ht.minute⟩
  have htv := (isTime_iff _).1 ht
  have hne : code ≠ [] := by
    rintro rfl
    have h0 : normalizeCode [] = [] := by decide
    rw [h0] at hcode
    have : join [32] w.words ≠ [] := by
      rw [TafRecord.words, join_cons_ne (by simp [TafRecord.body, TafRecord.front])]
      simp
    exact this hcode.symm
  obtain ⟨-, -, hsec⟩ := taf_sections hw hdom
  rw [← hcode] at hsec
  have htext : splitC 32 (Taf.bodyText (normalizeCode code)) = tafGroupsOf w := by
    unfold Taf.bodyText
    rw [hsec]
    exact taf_groups hw hdom
  have key : ∃ r, Taf.new db clock code a = .ok r ∧ r.unparsed = [] := by
    rw [Taf.new_eq db clock code a hne]
    obtain ⟨y0, mo0, b1, b2, b3, b4, -, -, ht0⟩ := default_time hs 0 none none (by simp) (by simp)
    obtain ⟨v0, hv0⟩ := default_valid b1 b2 b3 b4
    rw [ht0, ok_bind, hv0, ok_bind]
    obtain ⟨s', hs'⟩ := taf_total (db := db) hw hy hmo hy1 (by omega) ht htext (normalizeCode code)
      ⟨none, ⟨y0, mo0, 1, 0, 0⟩⟩ v0
    have hf := Taf.parse_frame hs'
    have hR : Taf.Reading db (clock 1) a (tafPlacesOf w) (Taf.start (normalizeCode code)
        ⟨none, ⟨y0, mo0, 1, 0, 0⟩⟩ v0) s' := by
      obtain ⟨asg, e1, e2, e3, e4, -⟩ := parseSection_reading hs'
      have := ((decodes_iff _ _ _).1 (taf_decodes (db := db) (now := clock 1) (a := a) hw hdom htext).1).trans
        ((decodes_iff _ _ _).1 ⟨asg, e1, e2, rfl⟩).symm
      rw [← this] at e3 e4
      exact Taf.reading e3 e4 ⟨rfl, rfl⟩ ⟨rfl, rfl⟩ rfl rfl
    have hb : Between s'.valid w.changes.length { s' with unparsed := s'.unparsed ++ [] } := by
      refine ⟨rfl, ?_, ?_, ?_, ?_, ?_⟩
      · show s'.changes.max = 8
        rw [hf.changes]; rfl
      · show s'.changes.n = 0
        rw [hf.changes]; rfl
      · show s'.changes.list.length + _ ≤ 8
        rw [hf.changes]
        have := hw.changes.1
        show 0 + w.changes.length ≤ 8
        omega
      · show ∀ x ∈ s'.changes.list, _
        rw [hf.changes]
        intro x hx
        cases hx
      · show s'.unparsed ++ [] = []
        rw [hf.unparsed]; rfl
    have hcs : s'.changesCodes = w.changes.map changeCode := by
      rw [hf.changesCodes]
      show (tafSections (normalizeCode code)).2 = _
      rw [hsec]
    have hgo : ∃ r', Taf.changesGo (w.changes.map changeCode) { s' with unparsed := s'.unparsed ++ [] } = .ok r' ∧
        Between s'.valid 0 r' := by
      by_cases hno : w.changes = []
      · rw [hno] at hb ⊢
        exact ⟨_, rfl, hb⟩
      · cases hv : w.valid with
        | none => exact absurd hv (hw.period hno)
        | some g =>
          obtain ⟨s1, -, -⟩ := (taf_period hw hy hmo hy1 ht hR).2 g hv
          have hg := (hw.valid g hv).2.1.le
          obtain ⟨v1, v2, v3⟩ := takes_year htv (by omega) s1
          simp only at v2 v3
          exact changes_total hw.changes.2 v1 (by omega) (by omega) hb
    obtain ⟨r', hr', hb'⟩ := hgo
    rw [← hcs] at hr'
    rw [hs', ok_bind]
    simp only
    rw [hr', ok_bind]
    have hun : r'.finish.unparsed = [] := by
      unfold Taf.finish
      simp only
      rw [GroupList.iter_reset _ hb'.reset, hb'.unparsed, List.nil_append, List.flatMap_eq_nil_iff]
      exact fun x hx => (hb'.codes x hx).2
    exact ⟨_, if_neg fun h => h.1 hun, hun⟩
  obtain ⟨r, hnew, hun⟩ := key
  exact ⟨r, hnew, taf_said hw hy hmo hy1 hy2 ht hnew hsec, hun⟩

/-- C51. The words of a TAF record joined by blanks are parsed without exception into a report that
says exactly what the record states, in its body and in every change, with no unparsed group. -/
theorem C51_round_trip (db : Database) (clock : Clock) (a : Args) (w : TafRecord) (y mo : Nat) (hs : Sane clock)
    (hy : a.year.getD (clock 1).year = (y : Int)) (hmo : a.month.getD (clock 1).month = (mo : Int))
    (hy1 : 1000 ≤ y) (hy2 : y < 9998) (hw : w.WF) (ht : IsTime ⟨y, mo, w.day, w.hour, w.minute⟩) :
    ∃ r, Taf.new db clock (join [32] w.words) a = .ok r ∧
      TafSaidBy db ⟨y, mo, w.day, w.hour, w.minute⟩ w r ∧ r.unparsed = [] :=
  taf_code db clock a w y mo hs hy hmo hy1 hy2 hw ht _
    (taf_sections hw ⟨⟨ht.day.1, isTime_day ht⟩, ht.hour, ht.minute⟩).2.1

/-- C51. The same whatever white space separates and surrounds the words. -/
theorem C51_layout (db : Database) (clock : Clock) (a : Args) (w : TafRecord) (y mo : Nat) (hs : Sane clock)
    (hy : a.year.getD (clock 1).year = (y : Int)) (hmo : a.month.getD (clock 1).month = (mo : Int))
    (hy1 : 1000 ≤ y) (hy2 : y < 9998) (hw : w.WF) (ht : IsTime ⟨y, mo, w.day, w.hour, w.minute⟩)
    (lead trail first : PyStr) (rest : List (PyStr × PyStr)) (hl : White lead) (htr : White trail)
    (hsep : ∀ p ∈ rest, Separator p.1) (hws : first :: rest.map (·.2) = w.words) :
    ∃ r, Taf.new db clock (lead ++ layout first rest ++ trail) a = .ok r ∧
      TafSaidBy db ⟨y, mo, w.day, w.hour, w.minute⟩ w r ∧ r.unparsed = [] := by
  have hall : ∀ v ∈ first :: rest.map (·.2), Word v := by
    rw [hws]
    intro v hv
    exact ((taf_sections hw ⟨⟨ht.day.1, isTime_day ht⟩, ht.hour, ht.minute⟩).1 v hv).1
  refine taf_code db clock a w y mo hs hy hmo hy1 hy2 hw ht _ ?_
  rw [normalizeCode_layout lead trail first rest hl htr (hall _ (by simp)) fun p hp =>
    ⟨hsep p hp, hall _ (List.mem_cons_of_mem _ (List.mem_map_of_mem hp))⟩, hws]

/-! ### Instances -/

def sampleTemporary : TafChange where
  kind := .tempo
  valid := some ⟨15, py!"12", 15, py!"14"⟩
  conds := { vis := some (.range ⟨.exact, none, false, some (51, 52), .sm⟩),
             weathers := [⟨some .heavy, some .TS, some (.prec .RA)⟩],
             clouds := [⟨.bkn, .hundreds py!"005", .cb⟩] }

def sampleFrom : TafChange where
  kind := .fm ⟨15, py!"18", py!"00"⟩
  conds := { wind := some ⟨.tens 25, false, .digits py!"10", none, false⟩,
             vis := some (.range ⟨.above, some py!"6", false, none, .sm⟩),
             clouds := [⟨.sct, .hundreds py!"030", .absent⟩] }

def sampleProbable : TafChange where
  kind := .prob false true
  valid := some ⟨15, py!"20", 15, py!"22"⟩
  conds := { vis := some (.metres (.digits py!"4000") none),
             weathers := [⟨none, some .SH, some (.prec .RA)⟩] }

def sampleBecoming : TafChange where
  kind := .becmg
  valid := some ⟨16, py!"00", 16, py!"02"⟩
  conds := { wind := some ⟨.tens 3, false, .digits py!"05", none, false⟩, vis := some .cavok }

/-- A record with a group of every kind and four changes. -/
def sampleTaf : TafRecord where
  modifier := some py!"AMD"
  station := py!"KJFK"
  day := 15
  hour := 11
  minute := 30
  valid := some ⟨15, py!"12", 16, py!"18"⟩
  conds := { wind := some ⟨.tens 23, false, .digits py!"15", some (false, py!"27"), false⟩,
             vis := some (.range ⟨.exact, some py!"1", true, some (49, 50), .sm⟩),
             weathers := [⟨some .light, none, some (.prec .RA)⟩],
             clouds := [⟨.bkn, .hundreds py!"010", .absent⟩, ⟨.ovc, .hundreds py!"025", .cb⟩] }
  temps := [⟨true, false, py!"25", 15, py!"18"⟩, ⟨false, true, py!"02", 16, py!"10"⟩]
  changes := [sampleTemporary, sampleFrom, sampleProbable, sampleBecoming]

instance (n : Nat) : Decidable (AsciiDigit n) := by unfold AsciiDigit; infer_instance

theorem hourDigits_of {top a b : Nat} (ha : AsciiDigit a) (hb : AsciiDigit b) (ht : digitsVal [a, b] ≤ top) :
    HourDigits top [a, b] := ⟨a, b, rfl, ha, AsciiDigit.isDigit hb, ht, fun _ => hb⟩

theorem sampleTaf_wf : sampleTaf.WF where
  modifier := by rintro _ ⟨⟩; exact .inl rfl
  station := ⟨by decide, by decide, by decide⟩
  opens := by
    rintro - ⟨k, hk, h⟩
    revert h
    revert k
    decide
  valid := by
    rintro _ ⟨⟩
    exact ⟨⟨by decide, by decide⟩, hourDigits_of (by decide) (by decide) (by decide), ⟨by decide, by decide⟩,
      hourDigits_of (by decide) (by decide) (by decide)⟩
  conds := by
    refine ⟨?_, ?_, by decide, by decide, fun w hw => ?_⟩
    · rintro _ ⟨⟩
      refine ⟨?_, ⟨by decide, by decide⟩, ?_⟩
      · show 23 ≤ 36; decide
      rintro p ds ⟨⟩
      exact ⟨by decide, by decide⟩
    · rintro _ ⟨⟩
      refine ⟨⟨?_, ?_⟩, by decide, by decide⟩
      · rintro _ ⟨⟩; decide
      · rintro _ _ ⟨⟩; decide
    · simp only [sampleTaf, List.mem_cons, List.not_mem_nil, or_false] at hw
      rcases hw with rfl | rfl <;> exact ⟨rfl, by decide⟩
  wind := by rintro _ ⟨⟩; exact ⟨by decide, by decide, by decide⟩
  vis := by
    rintro _ ⟨⟩
    refine ⟨⟨?_, ?_⟩, by simp⟩
    · rintro _ ⟨⟩; decide
    · rintro _ _ ⟨⟩; decide
  noVis := by rintro ⟨⟩
  goesOn := by intro _; decide
  temps := by
    intro w hw
    simp only [sampleTaf, List.mem_cons, List.not_mem_nil, or_false] at hw
    rcases hw with rfl | rfl <;>
    exact ⟨rfl, by decide, ⟨by decide, by decide⟩, hourDigits_of (by decide) (by decide) (by decide)⟩
  counts := by decide
  changes := by
    refine ⟨by decide, fun c hc => ?_⟩
    simp only [sampleTaf, List.mem_cons, List.not_mem_nil, or_false] at hc
    rcases hc with rfl | rfl | rfl | rfl
    · refine ⟨by rintro _ ⟨⟩, ?_, ⟨by rintro _ ⟨⟩, ?_, by decide, by decide, ?_⟩, by rintro _ ⟨⟩, by rintro _ ⟨⟩,
        fun _ => by decide⟩
      · rintro _ ⟨⟩
        exact ⟨⟨by decide, by decide⟩, hourDigits_of (by decide) (by decide) (by decide), ⟨by decide, by decide⟩,
          hourDigits_of (by decide) (by decide) (by decide)⟩
      · rintro _ ⟨⟩
        refine ⟨⟨by rintro _ ⟨⟩, ?_⟩, by decide, by decide⟩
        rintro _ _ ⟨⟩; decide
      · intro w hw
        rw [List.mem_singleton.1 hw]
        exact ⟨rfl, by decide⟩
    · refine ⟨?_, by rintro _ ⟨⟩, ⟨?_, ?_, by decide, by decide, ?_⟩, ?_, by rintro _ ⟨⟩, fun _ => by decide⟩
      · rintro _ ⟨⟩
        exact ⟨⟨⟨by decide, by decide⟩, hourDigits_of (by decide) (by decide) (by decide),
          ⟨_, _, rfl, by decide, by decide, by decide⟩⟩, rfl⟩
      · rintro _ ⟨⟩
        refine ⟨?_, ⟨by decide, by decide⟩, by rintro _ _ ⟨⟩⟩
        show 25 ≤ 36; decide
      · rintro _ ⟨⟩
        refine ⟨⟨?_, by rintro _ _ ⟨⟩⟩, by decide, by decide⟩
        rintro _ ⟨⟩; decide
      · intro w hw
        rw [List.mem_singleton.1 hw]
        exact ⟨rfl, by decide⟩
      · rintro _ ⟨⟩; exact ⟨by decide, by decide, by decide⟩
    · refine ⟨by rintro _ ⟨⟩, ?_, ⟨by rintro _ ⟨⟩, ?_, by decide, by decide, by rintro _ ⟨⟩⟩, by rintro _ ⟨⟩,
        by rintro _ ⟨⟩, fun _ => by decide⟩
      · rintro _ ⟨⟩
        exact ⟨⟨by decide, by decide⟩, hourDigits_of (by decide) (by decide) (by decide), ⟨by decide, by decide⟩,
          hourDigits_of (by decide) (by decide) (by decide)⟩
      · rintro _ ⟨⟩
        exact ⟨⟨⟨rfl, by decide⟩, by rintro _ ⟨⟩⟩, by decide, by decide⟩
    · refine ⟨by rintro _ ⟨⟩, ?_, ⟨?_, ?_, by decide, by decide, by rintro _ ⟨⟩⟩, ?_, by rintro _ ⟨⟩, ?_⟩
      · rintro _ ⟨⟩
        exact ⟨⟨by decide, by decide⟩, hourDigits_of (by decide) (by decide) (by decide), ⟨by decide, by decide⟩,
          hourDigits_of (by decide) (by decide) (by decide)⟩
      · rintro _ ⟨⟩
        refine ⟨?_, ⟨by decide, by decide⟩, by rintro _ _ ⟨⟩⟩
        show 3 ≤ 36; decide
      · rintro _ ⟨⟩
        exact ⟨trivial, by decide, by decide⟩
      · rintro _ ⟨⟩; exact ⟨by decide, by decide, by decide⟩
      · rintro ⟨_, ⟨⟩, h⟩
        revert h; decide
  probs := by decide
  period := by intro _; decide

example : ∃ r, Taf.new sampleDb sampleClock
      py!"TAF AMD KJFK 151130Z 1512/1618 23015G27KT 1 1/2SM -RA BKN010 OVC025CB TX25/1518Z TNM02/1610Z TEMPO 1512/1514 3/4SM +TSRA BKN005CB FM151800 25010KT P6SM SCT030 PROB30 TEMPO 1520/1522 4000 SHRA BECMG 1600/1602 03005KT CAVOK" {} = .ok r ∧
    TafSaidBy sampleDb ⟨2024, 6, 15, 11, 30⟩ sampleTaf r ∧ r.unparsed = [] := by
  have e : join [32] sampleTaf.words =
      py!"TAF AMD KJFK 151130Z 1512/1618 23015G27KT 1 1/2SM -RA BKN010 OVC025CB TX25/1518Z TNM02/1610Z TEMPO 1512/1514 3/4SM +TSRA BKN005CB FM151800 25010KT P6SM SCT030 PROB30 TEMPO 1520/1522 4000 SHRA BECMG 1600/1602 03005KT CAVOK" := by
    decide +kernel
  rw [← e]
  exact C51_round_trip sampleDb sampleClock {} sampleTaf 2024 6 sane_sample.1 rfl rfl (by decide) (by decide)
    sampleTaf_wf ⟨by decide, by decide, ⟨by decide, 30, by decide, by decide⟩, by decide, by decide⟩

/-- A record with a station, a time and a period. -/
def shortTaf : TafRecord where
  station := py!"SBGR"
  day := 15
  hour := 11
  minute := 30
  valid := some ⟨15, py!"12", 16, py!"18"⟩

def rainy : Conditions := { weathers := [⟨none, none, some (.prec .RA)⟩] }

/-- C51, what the conditions on a record are for: shallow fog without a visibility before it is taken
for one, a third maximum raises an exception, the sixth PROB30 TEMPO is split in two, a PROB30 with
nothing after it is joined to the TEMPO that follows, and after AMD a station FMXX opens a change. -/
theorem C51_counterexample :
    ((tafOk sampleClock (join [32] { shortTaf with
        conds := { weathers := [⟨none, some .MI, some (.obsc .FG)⟩] } }.words)).map
      fun r => (r.core.prevailing.code, r.core.weathers.list.length)) = some (some py!"MIFG", 0) ∧
    (tafErr (join [32] { shortTaf with
        temps := List.replicate 3 ⟨true, false, py!"25", 15, py!"18"⟩ }.words)) = some .range ∧
    ((tafOk sampleClock (join [32] { shortTaf with
        changes := List.replicate 6 ⟨.prob false true, none, rainy⟩ }.words)).map
      fun r => r.changes.list.length) = some 7 ∧
    ((tafOk sampleClock (join [32] { shortTaf with
        changes := [⟨.prob false false, none, {}⟩, ⟨.tempo, none, rainy⟩] }.words)).map
      fun r => r.changes.list.length) = some 1 ∧
    ((tafOk sampleClock (join [32] { shortTaf with
        modifier := some py!"AMD", station := py!"FMXX", valid := none }.words)).map
      fun r => (r.station.code, r.changes.list.length)) = some (none, 1) := by
  decide +kernel

end Verif.Props
