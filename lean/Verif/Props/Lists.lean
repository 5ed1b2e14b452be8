import Verif.Spec.Lists
import Verif.Props.GroupList
import Verif.Props.RecordText

/-
Lists of groups: access by index and text (C81).
-/

namespace Verif.Props
open Verif Spec

theorem join_joined (sep : PyStr) (ts : List PyStr) : Joined sep ts (join sep ts) := by
  match ts with
  | [] => exact .none
  | [t] => exact .one t
  | t :: u :: ts => exact .more t u (join_joined sep (u :: ts))

/-! ### Access -/

/-- C81. `list[i]` is the group at the index `i`, which may count from the back; an index beyond the
capacity raises `RangeError`, any other index without a group `IndexError`. -/
theorem C81_access {α : Type} (g : GroupList α) (h : g.list.length ≤ g.max) (i : Int) :
    (∀ x, g.getItem i = .ok x ↔ AtIndex g.list i x) ∧
    (g.getItem i = .error .range ↔ (g.max : Int) ≤ i) ∧
    (g.getItem i = .error .index ↔ i < g.max ∧ ∀ x, ¬ AtIndex g.list i x) := by
  have hok : ∀ x, g.getItem i = .ok x ↔ AtIndex g.list i x := by
    intro x
    unfold GroupList.getItem AtIndex
    by_cases h1 : i ≥ g.max
    · rw [if_pos h1]
      refine ⟨(nomatch ·), ?_⟩
      rintro (⟨k, rfl, hk⟩ | ⟨k, rfl, hk⟩)
      · obtain ⟨hk, -⟩ := List.getElem?_eq_some_iff.1 hk; omega
      · omega
    · rw [if_neg h1]
      by_cases h2 : i < 0
      · obtain ⟨n, rfl⟩ : ∃ n : Nat, i = -(n + 1) := ⟨(-i - 1).toNat, by omega⟩
        have hiff : ((∃ k : Nat, -((n : Int) + 1) = k ∧ g.list[k]? = some x) ∨
            ∃ k : Nat, -((n : Int) + 1) = -(k + 1) ∧ g.list.reverse[k]? = some x) ↔
            g.list.reverse[n]? = some x := by
          constructor
          · rintro (⟨k, hk, -⟩ | ⟨k, hk, hx⟩)
            · omega
            · obtain rfl : n = k := by omega
              exact hx
          · exact fun hx => .inr ⟨n, rfl, hx⟩
        rw [hiff]
        simp only [if_pos h2]
        by_cases h3 : n < g.list.length
        · rw [if_neg (by omega), List.getElem?_reverse h3,
            show (-((n : Int) + 1) + g.list.length).toNat = g.list.length - 1 - n by omega,
            List.getElem?_eq_getElem (by omega)]
          simp
        · rw [if_pos (by omega), List.getElem?_eq_none (by simp; omega)]
          simp
      · obtain ⟨n, rfl⟩ : ∃ n : Nat, i = n := ⟨i.toNat, by omega⟩
        have hiff : ((∃ k : Nat, (n : Int) = k ∧ g.list[k]? = some x) ∨
            ∃ k : Nat, (n : Int) = -(k + 1) ∧ g.list.reverse[k]? = some x) ↔ g.list[n]? = some x := by
          constructor
          · rintro (⟨k, hk, hx⟩ | ⟨k, hk, -⟩)
            · obtain rfl : n = k := by omega
              exact hx
            · omega
          · exact fun hx => .inl ⟨n, rfl, hx⟩
        rw [hiff]
        simp only [if_neg h2, Int.toNat_natCast]
        cases g.list[n]? <;> simp
  have hrange : g.getItem i = .error .range ↔ (g.max : Int) ≤ i := by
    unfold GroupList.getItem
    by_cases h1 : i ≥ g.max
    · rw [if_pos h1]; simp [h1]
    · rw [if_neg h1]
      refine ⟨fun hh => ?_, fun hh => absurd hh h1⟩
      simp only at hh
      revert hh
      generalize (if i < 0 then i + (g.list.length : Int) else i) = j
      intro hh
      split at hh
      · cases hh
      · split at hh <;> cases hh
  refine ⟨hok, hrange, ?_⟩
  have hone : (∃ x, g.getItem i = .ok x) ∨ g.getItem i = .error .range ∨ g.getItem i = .error .index := by
    unfold GroupList.getItem
    simp only
    generalize (if i < 0 then i + (g.list.length : Int) else i) = j
    split
    · exact .inr (.inl rfl)
    · split
      · exact .inr (.inr rfl)
      · split
        · exact .inl ⟨_, rfl⟩
        · exact .inr (.inr rfl)
  constructor
  · intro he
    refine ⟨?_, fun x hx => ?_⟩
    · rw [← Int.not_le, ← hrange, he]; simp
    · rw [← hok, he] at hx; cases hx
  · rintro ⟨h1, h2⟩
    rcases hone with ⟨x, hx⟩ | hx | hx
    · exact absurd ((hok x).1 hx) (h2 x)
    · exact absurd (hrange.1 hx) (by omega)
    · exact hx

/-- A list of capacity 3 with two groups. -/
example : (GroupList.mk 0 3 [5, 6]).getItem 1 = .ok 6 ∧ (GroupList.mk 0 3 [5, 6]).getItem (-2) = .ok 5 ∧
    (GroupList.mk 0 3 [5, 6]).getItem 2 = .error .index ∧
    (GroupList.mk 0 3 [5, 6]).getItem (-3) = .error .index ∧
    (GroupList.mk 0 3 [5, 6]).getItem 3 = .error .range := ⟨rfl, rfl, rfl, rfl, rfl⟩

/-! ### Text -/

theorem each_shown {γ α : Type} {G : Grammar γ α} {str : α → PyStr} {Shows : γ → PyStr → Prop}
    {gs : List PyStr} {xs : List α} (h : Each (SaysText (G.showing str Shows)) gs xs) :
    ∃ ws : List γ, gs = ws.map G.text ∧ (∀ w ∈ ws, G.WF w) ∧ Each Shows ws (xs.map str) := by
  induction h with
  | nil => exact ⟨[], rfl, by simp, .nil⟩
  | cons h1 _ ih =>
    obtain ⟨⟨w, hw, rfl⟩, hs⟩ := h1
    obtain ⟨ws, rfl, h2, h3⟩ := ih
    refine ⟨w :: ws, rfl, ?_, .cons (hs w hw rfl).2 h3⟩
    intro v hv
    rcases List.mem_cons.1 hv with rfl | hv
    · exact hw
    · exact h2 v hv

theorem list_shown {γ α : Type} {G : Grammar γ α} {str : α → PyStr} {Shows : γ → PyStr → Prop}
    {c : List (PyStr × Nat)} {lo hi : Nat} {g : GroupList α}
    (h : ReadAll c lo hi (G.showing str Shows) g.list) :
    ListShown G Shows (taken c lo hi) (g.str str) := by
  obtain ⟨ws, h1, h2, h3⟩ := each_shown h
  exact ⟨ws, _, h1, h2, h3, join_joined _ _⟩

/-- C81. `str` of the runway visual ranges, the weathers and the clouds of a METAR: what each group
taken by their handlers states, in order, with " | " between neighbours. -/
theorem C81_metar (db : Database) (clock : Clock) (code : PyStr) (a : Args) (r : Metar)
    (c : List (PyStr × Nat)) (h : Metar.new db clock code a = .ok r)
    (hc : Decodes (Metar.handlers db (clock 2) a) (metarGroups r.body) c) :
    ListShown rangeGrammar RangeGroup.Shows (taken c 8 10) (r.runwayRanges.str RunwayRange.str) ∧
    ListShown weatherGrammar (fun w t => t = w.shows) (taken c 11 13) (r.core.weathers.str Weather.str) ∧
    ListShown cloudGrammar (fun w t => t = w.shows) (taken c 14 17) (r.core.clouds.str Cloud.str) :=
  ⟨list_shown ((C62_reports db clock code a).1 r c h hc).2.2,
   list_shown ((C63_reports db clock code a).1 r c h hc).1,
   list_shown ((C64_reports db clock code a).1 r c h hc)⟩

/-- C81. The same of the weathers and clouds of a trend, a TAF and a change of a TAF. -/
theorem C81_forecasts (db : Database) (clock : Clock) (code : PyStr) (a : Args) :
    (∀ r p text c, Metar.new db clock code a = .ok r → p ∈ r.weatherTrends.list →
      p.code = some text → Decodes ChangePeriod.handlers (bodyGroups text) c →
      ListShown weatherGrammar (fun w t => t = w.shows) (taken c 5 7) (p.core.weathers.str Weather.str) ∧
      ListShown cloudGrammar (fun w t => t = w.shows) (taken c 8 11) (p.core.clouds.str Cloud.str)) ∧
    (∀ r c, Taf.new db clock code a = .ok r →
      Decodes (Taf.handlers db (clock 1) a) (bodyGroups r.body) c →
      ListShown weatherGrammar (fun w t => t = w.shows) (taken c 9 11) (r.core.weathers.str Weather.str) ∧
      ListShown cloudGrammar (fun w t => t = w.shows) (taken c 12 15) (r.core.clouds.str Cloud.str)) ∧
    ∀ r x c, Taf.new db clock code a = .ok r → x ∈ r.changes.list →
      Decodes ChangeForecasted.handlers (changeGroups x.code) c →
      ListShown weatherGrammar (fun w t => t = w.shows) (taken c 4 6) (x.core.weathers.str Weather.str) ∧
      ListShown cloudGrammar (fun w t => t = w.shows) (taken c 7 10) (x.core.clouds.str Cloud.str) := by
  obtain ⟨-, w1, w2, w3⟩ := C63_reports db clock code a
  obtain ⟨-, c1, c2, c3⟩ := C64_reports db clock code a
  exact ⟨fun r p text c h hp ht hc =>
      ⟨list_shown (w1 r p text c h hp ht hc), list_shown (c1 r p text c h hp ht hc)⟩,
    fun r c h hc => ⟨list_shown (w2 r c h hc), list_shown (c2 r c h hc)⟩,
    fun r x c h hx hc => ⟨list_shown (w3 r x c h hx hc), list_shown (c3 r x c h hx hc)⟩⟩

/-- C81. `str` of the wind shears of a METAR: "all runways" if there is one group and it says `ALL`,
otherwise the text of each group, in order, with " | " between neighbours. -/
theorem C81_wind_shears (db : Database) (clock : Clock) (code : PyStr) (a : Args) (r : Metar)
    (c : List (PyStr × Nat)) (h : Metar.new db clock code a = .ok r)
    (hc : Decodes (Metar.handlers db (clock 2) a) (metarGroups r.body) c) :
    ∃ ws : List ShearGroup, taken c 22 24 = ws.map ShearGroup.text ∧ (∀ w ∈ ws, w.WF) ∧
      ((∃ w, ws = [w] ∧ w.all = true) → windshearsStr r.windshears = py!"all runways") ∧
      ((¬ ∃ w, ws = [w] ∧ w.all = true) →
        Joined py!" | " (ws.map ShearGroup.shows) (windshearsStr r.windshears)) := by
  obtain ⟨hall, ws, h1, h2, h3, -, -⟩ := C35_report db clock code a r c h hc
  refine ⟨ws, h1, h2, fun ht => ?_, fun hf => ?_⟩
  · unfold windshearsStr
    rw [if_pos (h3.2 ht)]
  · rw [← h3] at hf
    unfold windshearsStr
    rw [if_neg hf]
    have e : r.windshears.list.map Windshear.str = ws.map ShearGroup.shows := by
      have hall : Each (SaysText shearGrammar) (taken c 22 24) r.windshears.list := hall
      rw [h1] at hall
      clear h1 h3 hf
      generalize r.windshears.list = xs at hall
      induction ws generalizing xs with
      | nil => cases hall; rfl
      | cons w ws ih =>
        cases hall with
        | cons s1 s2 =>
          rw [List.map_cons, List.map_cons, ih (fun v hv => h2 v (List.mem_cons_of_mem _ hv)) _ s2,
            shear_shown (h2 w (by simp)) (s1.2 w (h2 w (by simp)) rfl)]
    unfold GroupList.str
    rw [e]
    exact join_joined _ _

/-- C81. `str` of the trends of a METAR given by a record: the text of each trend, in order, one after
the other on separate lines. -/
theorem C81_trends (db : Database) (clock : Clock) (a : Args) (w : MetarRecord)
    (trends : List TrendRecord) (remark : Option (PyStr × List PyStr)) (y mo : Nat) (hs : Sane clock)
    (hy : a.year.getD (clock 2).year = (y : Int)) (hmo : a.month.getD (clock 2).month = (mo : Int))
    (hy1 : 1000 ≤ y) (hy9 : y < 9999) (hw : w.WF) (ht : IsTime ⟨y, mo, w.day, w.hour, w.minute⟩)
    (htr : TrendsWF trends ⟨y, mo, w.day, w.hour, w.minute⟩)
    (hr : ∀ p ∈ remark, Part [py!"RMK"] metarWords p) (code : PyStr)
    (hcode : normalizeCode code = join [32] (metarText w.words (trends.map trendPart) remark)) :
    ∃ r ts, Metar.new db clock code a = .ok r ∧
      Each (TrendRecord.Shows ⟨y, mo, w.day, w.hour, w.minute⟩) trends ts ∧
      Joined py!"\n" ts (trendsStr r.weatherTrends) := by
  obtain ⟨r, h1, -, h3, -⟩ := trends_round_trip_code db clock a w trends remark y mo hs hy hmo hy1 hy9 hw ht
    htr hr code hcode
  exact ⟨r, _, h1, trends_shown h1 (fun _ h => h) htr.each h3, join_joined _ _⟩

/-- Two clouds, two runways with wind shear, wind shear at all runways. -/
example : (metarOk sampleClock py!"METAR SBGR 071200Z 9999 SCT020 BKN040 WS R07L WS R25").map
    (fun r => (r.core.clouds.str Cloud.str, windshearsStr r.windshears)) =
      some (py!"scattered at 2000.0 feet | broken at 4000.0 feet", py!"07 left | 25") := by
  decide +kernel
example : (metarOk sampleClock py!"METAR SBGR 071200Z 9999 WS ALL RWY").map
    (fun r => windshearsStr r.windshears) = some py!"all runways" := by
  decide +kernel

/-- The trends of the sample record. -/
example : ∃ r ts, Metar.new sampleDb sampleClock (join [32] (metarText sampleRecord.words
      (sampleTrends.map trendPart) none)) {} = .ok r ∧
    Each (TrendRecord.Shows ⟨2024, 6, 15, 12, 51⟩) sampleTrends ts ∧
    Joined py!"\n" ts (trendsStr r.weatherTrends) :=
  C81_trends sampleDb sampleClock {} sampleRecord sampleTrends none 2024 6 sane_sample.1 rfl rfl (by decide)
    (by decide) sampleRecord_wf ⟨by decide, by decide, ⟨by decide, 30, by decide, by decide⟩, by decide, by decide⟩
    sampleTrends_wf (by rintro _ ⟨⟩) _ (by decide +kernel)

end Verif.Props
