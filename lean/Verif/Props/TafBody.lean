import Verif.Props.TafTotal

/-
The methods of the TAF parser succeed on the groups of the body of a TAF record.
-/

namespace Verif.Props
open Spec MetarRegExp

theorem temp_place {r : TafRecord} (h : r.WF) {g : PyStr} {k : Nat} (hk : 16 ≤ k)
    (hg : (g, k) ∈ tafPlacesOf r) : ∃ w, r.temps[k - 16]? = some w ∧ g = w.text := by
  have l1 : r.modifier.toList.length ≤ 1 := by cases r.modifier <;> simp
  have l4 : (if r.missing then [py!"NIL"] else []).length ≤ 1 := by split <;> simp
  have l5 := opt_len r.valid ValidGroup.text
  have l6 : (if r.cancelled then [py!"CNL"] else []).length ≤ 1 := by split <;> simp
  have l7 := opt_len r.conds.wind WindGroup.text
  have l8 := opt_len r.conds.vis VisGroup.text
  have l9 : (r.conds.weathers.map WeatherGroup.text).length ≤ 3 := by simpa using h.conds.weathers.1
  have l12 : (r.conds.clouds.map Layer.text).length ≤ 4 := by simpa using h.conds.clouds.1
  have out : ∀ {b : Nat} {l : List PyStr}, b + l.length ≤ 16 → (g, k) ∈ place b l → False := by
    intro b l hl hm
    rw [mem_place] at hm
    have := (List.getElem?_eq_some_iff.1 hm.2).1
    omega
  rw [tafPlacesOf_eq] at hg
  simp only [List.mem_append] at hg
  rcases hg with hg | hg | hg | hg | hg | hg | hg | hg | hg | hg | hg | hg
  · exact (out (by simp) hg).elim
  · exact (out (by omega) hg).elim
  · exact (out (by simp) hg).elim
  · exact (out (by simp) hg).elim
  · exact (out (by omega) hg).elim
  · exact (out (by omega) hg).elim
  · exact (out (by omega) hg).elim
  · exact (out (by omega) hg).elim
  · exact (out (by omega) hg).elim
  · exact (out (by omega) hg).elim
  · exact (out (by omega) hg).elim
  · obtain ⟨-, h2⟩ := mem_place.1 hg
    rw [List.getElem?_map, Option.map_eq_some_iff] at h2
    obtain ⟨w, h2, rfl⟩ := h2
    exact ⟨w, h2, rfl⟩

/-- How many of the first `n` temperatures are maxima, or minima. -/
def upTo (l : List TafTempGroup) (mx : Bool) (n : Nat) : Nat := ((l.take n).filter (·.max == mx)).length

theorem upTo_mono (l : List TafTempGroup) (mx : Bool) (n : Nat) : upTo l mx n ≤ upTo l mx (n + 1) := by
  unfold upTo
  rw [List.take_add_one, List.filter_append, List.length_append]
  omega

theorem upTo_succ {l : List TafTempGroup} {n : Nat} {w : TafTempGroup} (h : l[n]? = some w) :
    upTo l w.max (n + 1) = upTo l w.max n + 1 := by
  unfold upTo
  rw [List.take_add_one, h]
  simp

theorem upTo_le (l : List TafTempGroup) (mx : Bool) (n : Nat) : upTo l mx n ≤ (l.filter (·.max == mx)).length :=
  (List.Sublist.filter _ (List.take_sublist n l)).length_le

/-- The state before the handler at position `k`. -/
structure TafAt (t : DT) (r : TafRecord) (k : Nat) (s : Taf) : Prop where
  room : TafRoom k s
  time : 4 ≤ k → s.time.time = t
  max : s.maxTemperatures.max = 2 ∧ s.maxTemperatures.list.length ≤ upTo r.temps true (k - 16)
  min : s.minTemperatures.max = 2 ∧ s.minTemperatures.list.length ≤ upTo r.temps false (k - 16)

theorem TafAt.step {t : DT} {r : TafRecord} {k : Nat} {s s' : Taf} (h : TafAt t r k s) (hk : k ≠ 3)
    (hc : CoreRoom 9 12 (k + 1) s'.core) (ht : s'.time = s.time)
    (hmax : s'.maxTemperatures = s.maxTemperatures) (hmin : s'.minTemperatures = s.minTemperatures) :
    TafAt t r (k + 1) s' := by
  have up : ∀ b, upTo r.temps b (k - 16) ≤ upTo r.temps b (k + 1 - 16) := by
    intro b
    rcases Nat.lt_or_ge k 16 with h | h
    · rw [show k - 16 = 0 by omega, show k + 1 - 16 = 0 by omega]; exact Nat.le_refl _
    · rw [show k + 1 - 16 = (k - 16) + 1 by omega]; exact upTo_mono _ _ _
  refine ⟨⟨hc⟩, fun h4 => by rw [ht]; exact h.time (by omega), ?_, ?_⟩
  · rw [hmax]; exact ⟨h.max.1, Nat.le_trans h.max.2 (up _)⟩
  · rw [hmin]; exact ⟨h.min.1, Nat.le_trans h.min.2 (up _)⟩

theorem not_max_eq (l : List TafTempGroup) : l.filter (·.max == false) = l.filter (!·.max) :=
  List.filter_congr fun x _ => by cases x.max <;> rfl

theorem max_eq (l : List TafTempGroup) : l.filter (·.max == true) = l.filter (·.max) :=
  List.filter_congr fun x _ => by cases x.max <;> rfl

/-- The temperature at a position. -/
theorem temp_post {t : DT} (ht : t.valid = true) (hy : t.year < 9999) {r : TafRecord} (h : r.WF) {k : Nat} (hk : 16 ≤ k) :
    HandlerOk (fun _ => False) (TafAt t r) (fun i g => (g, i) ∈ tafPlacesOf r) k
      ⟨TafRegExp.TEMPERATURE, Taf.handleTemperature⟩ := by
  intro g m s hg hm hp
  obtain ⟨w, hw, rfl⟩ := temp_place h hk hg
  have hwf := h.temps w (List.mem_of_getElem? hw)
  obtain ⟨m', e1, e2, e3⟩ := tafTemp_match w hwf
  rw [show TafRegExp.TEMPERATURE.match w.text = some m from hm] at e1
  cases e1
  have hl := hwf.2.2.2.le
  obtain ⟨u, hu⟩ := takes_exists ht hy w.day (h := digitsVal w.hour) (by omega)
  obtain ⟨y, hy'⟩ := (tafTemp_new hwf e3 ht).2 ⟨u, hu⟩
  have htemp : ∃ x, TafTemperature.new m s.time.time = .ok x := by
    rw [hp.time (by omega)]
    unfold tafTagged at hy'
    cases hx : TafTemperature.new m t with
    | error e => rw [hx] at hy'; cases hy'
    | ok x => exact ⟨x, rfl⟩
  obtain ⟨x, hx⟩ := htemp
  show Post _ _ (Taf.handleTemperature m s)
  unfold Taf.handleTemperature
  rw [hx, ok_bind, e3.type]
  have hsub : k + 1 - 16 = (k - 16) + 1 := by omega
  have core := hp.room.core.mono
  cases hmx : w.max with
  | true =>
    have hs : upTo r.temps true (k - 16 + 1) = upTo r.temps true (k - 16) + 1 := hmx ▸ upTo_succ hw
    have hle := upTo_le r.temps true (k - 16 + 1)
    rw [max_eq] at hle
    have hc := h.counts.1
    have hl := hp.max.2
    simp only [if_true]
    unfold GroupList.add
    rw [if_neg (by rw [hp.max.1]; omega), ok_bind]
    refine Post.pure ⟨⟨⟨core.1, core.2⟩⟩, fun _ => hp.time (by omega), ⟨hp.max.1, ?_⟩, hp.min.1, ?_⟩
    · show (s.maxTemperatures.list ++ [x]).length ≤ _
      rw [hsub, List.length_append, List.length_singleton]
      omega
    · rw [hsub]; exact Nat.le_trans hp.min.2 (upTo_mono _ _ _)
  | false =>
    have hs : upTo r.temps false (k - 16 + 1) = upTo r.temps false (k - 16) + 1 := hmx ▸ upTo_succ hw
    have hle := upTo_le r.temps false (k - 16 + 1)
    rw [not_max_eq] at hle
    have hc := h.counts.2
    have hl := hp.min.2
    simp only [Bool.false_eq_true, if_false]
    rw [if_neg (by decide)]
    unfold GroupList.add
    rw [if_neg (by rw [hp.min.1]; omega), ok_bind]
    refine Post.pure ⟨⟨⟨core.1, core.2⟩⟩, fun _ => hp.time (by omega), ⟨hp.max.1, ?_⟩, hp.min.1, ?_⟩
    · rw [hsub]; exact Nat.le_trans hp.max.2 (upTo_mono _ _ _)
    · show (s.minTemperatures.list ++ [x]).length ≤ _
      rw [hsub, List.length_append, List.length_singleton]
      omega

theorem taf_decodes {db : Database} {now : Now} {a : Args} {r : TafRecord} (h : r.WF)
    (ht : (1 ≤ r.day ∧ r.day ≤ 31) ∧ r.hour ≤ 23 ∧ r.minute ≤ 59) {text : PyStr}
    (htext : splitC 32 text = tafGroupsOf r) :
    Decodes (Taf.handlers db now a) (splitC 32 text) (tafPlacesOf r) ∧
    leftover (splitC 32 text) (assign (Taf.handlers db now a) 0 (splitC 32 text)) = [] := by
  have hf := (taf_runs (db := db) (now := now) (a := a) h ht).fits
  have hd := hf.decodes
  have hl := hf.leftover
  change Decodes _ ((tafPlacesOf r).map (·.1)) (tafPlacesOf r) at hd
  change leftover ((tafPlacesOf r).map (·.1)) (assign _ 0 ((tafPlacesOf r).map (·.1))) = [] at hl
  rw [tafPlacesOf_groups, ← htext] at hd hl
  exact ⟨hd, hl⟩

/-- The methods succeed on the groups of the body of a record. -/
theorem taf_total {db : Database} {now : Now} {a : Args} {y mo : Nat} {r : TafRecord} (h : r.WF)
    (hy : a.year.getD now.year = (y : Int)) (hmo : a.month.getD now.month = (mo : Int)) (hy1 : 1000 ≤ y)
    (hy2 : y < 9999) (ht : IsTime ⟨y, mo, r.day, r.hour, r.minute⟩) {text : PyStr}
    (htext : splitC 32 text = tafGroupsOf r) (raw : PyStr) (time : Time) (v : Valid) :
    ∃ s', parseSection (Taf.handlers db now a) text (Taf.start raw time v) = .ok (s', []) := by
  have hdom : (1 ≤ r.day ∧ r.day ≤ 31) ∧ r.hour ≤ 23 ∧ r.minute ≤ 59 :=
    ⟨⟨ht.day.1, isTime_day ht⟩, ht.hour, ht.minute⟩
  obtain ⟨hd, hl⟩ := taf_decodes (db := db) (now := now) (a := a) h hdom htext
  have hT := taf_taken h
  have htv := (isTime_iff _).1 ht
  let t : DT := ⟨y, mo, r.day, r.hour, r.minute⟩
  have h0 : TafAt t r 0 (Taf.start raw time v) :=
    ⟨Taf.start_room raw time v, fun h => by omega, ⟨rfl, Nat.zero_le _⟩, ⟨rfl, Nat.zero_le _⟩⟩
  have mono : ∀ k s, (∀ g, (g, k) ∉ tafPlacesOf r) → TafAt t r k s → TafAt t r (k + 1) s := by
    intro k s hk hp
    by_cases h3 : k = 3
    · subst h3
      exact absurd (mem_taken.2 (by rw [hT.time]; simp)) (hk (timeText r.day r.hour r.minute))
    · exact hp.step h3 hp.room.core.mono rfl rfl rfl
  have hweather : ∀ k, 9 ≤ k → k < 12 →
      HandlerOk (fun _ => False) (TafAt t r) (fun i g => (g, i) ∈ tafPlacesOf r) k
        ⟨MetarRegExp.WEATHER, Taf.lift Core.handleWeather⟩ :=
    fun k h1 h2 g m s _ _ hp => by
      refine Taf.lift_post (P := CoreRoom 9 12 (k + 1)) (weather_post hp.room.core h1 h2) ?_
      exact fun _ hc => hp.step (by omega) hc rfl rfl rfl
  have hcloud : ∀ k, 12 ≤ k → k < 16 →
      HandlerOk (fun _ => False) (TafAt t r) (fun i g => (g, i) ∈ tafPlacesOf r) k
        ⟨MetarRegExp.CLOUD, Taf.lift Core.handleCloud⟩ :=
    fun k h1 h2 g m s _ hm hp => Taf.lift_post (cloud_post hm hp.room.core h1 h2) fun _ hc =>
      hp.step (by omega) hc rfl rfl rfl
  have hall : AllIdx (HandlerOk (fun _ => False) (TafAt t r) fun i g => (g, i) ∈ tafPlacesOf r) 0
      (Taf.handlers db now a) := by
    refine ⟨?_, ?_, ?_, ?_, ?_, ?_, ?_, ?_, ?_, hweather _ (by omega) (by omega),
      hweather _ (by omega) (by omega), hweather _ (by omega) (by omega), hcloud _ (by omega) (by omega),
      hcloud _ (by omega) (by omega), hcloud _ (by omega) (by omega), hcloud _ (by omega) (by omega),
      temp_post htv hy2 h (by omega), temp_post htv hy2 h (by omega), temp_post htv hy2 h (by omega),
      temp_post htv hy2 h (by omega), trivial⟩
    all_goals intro g m s hg hm hp
    all_goals simp only at hm
    · exact Post.ok (hp.step (by omega) ⟨hp.room.core.1.mono, hp.room.core.2.mono⟩ rfl rfl rfl)
    · exact Post.ok (hp.step (by omega) ⟨hp.room.core.1.mono, hp.room.core.2.mono⟩ rfl rfl rfl)
    · exact Post.pure (hp.step (by omega) ⟨hp.room.core.1.mono, hp.room.core.2.mono⟩ rfl rfl rfl)
    · simp only [mem_taken] at hg
      rw [hT.time, List.mem_singleton] at hg
      subst hg
      obtain ⟨code, e⟩ := time_reads hy hmo hy1 ht hm
      show Post _ _ (Taf.handleTime now a m s)
      unfold Taf.handleTime
      rw [e, ok_bind]
      exact Post.pure ⟨⟨⟨hp.room.core.1.mono, hp.room.core.2.mono⟩⟩, fun _ => rfl, hp.max, hp.min⟩
    · exact Post.ok (hp.step (by omega) ⟨hp.room.core.1.mono, hp.room.core.2.mono⟩ rfl rfl rfl)
    · simp only [mem_taken] at hg
      rw [hT.valid] at hg
      simp only [List.mem_map, Option.mem_toList] at hg
      obtain ⟨w, hw, rfl⟩ := hg
      have hwf := h.valid w hw
      obtain ⟨m', h1, h2, h3⟩ := valid_match w hwf
      rw [hm] at h1
      cases h1
      have l1 : digitsVal w.fromHour ≤ 23 := hwf.2.1.le
      have l2 : digitsVal w.untilHour ≤ 24 := hwf.2.2.2.le
      obtain ⟨f, hf⟩ := takes_exists htv hy2 w.fromDay (h := digitsVal w.fromHour) (by omega)
      obtain ⟨u, hu⟩ := takes_exists htv hy2 w.untilDay l2
      obtain ⟨x, hx⟩ := Valid.fromTaf_exists h3 l1 l2 htv hf hu
      show Post _ _ (Taf.handleValid m s)
      unfold Taf.handleValid
      rw [hp.time (by omega), hx, ok_bind]
      exact Post.pure (hp.step (by omega) ⟨hp.room.core.1.mono, hp.room.core.2.mono⟩ rfl rfl rfl)
    · exact Post.ok (hp.step (by omega) ⟨hp.room.core.1.mono, hp.room.core.2.mono⟩ rfl rfl rfl)
    · exact Taf.lift_post (wind_post windLike_taf hm hp.room.core) fun _ hc => hp.step (by omega) hc rfl rfl rfl
    · simp only [mem_taken] at hg
      rw [hT.vis] at hg
      simp only [List.mem_map, Option.mem_toList] at hg
      obtain ⟨w, hw, rfl⟩ := hg
      obtain ⟨m', h1, -, h2⟩ := tafVis_match w (h.vis w hw).1 (h.vis w hw).2
      rw [hm] at h1
      cases h1
      obtain ⟨x, hx, -⟩ := h2 (h.conds.vis w hw).2.1
      exact Taf.lift_post (prevailing_post (by rw [hx]; exact Raises.ok _) hp.room.core) fun _ hc =>
        hp.step (by omega) hc rfl rfl rfl
  obtain ⟨s', hs⟩ := parseSection_total' mono hall hd (fun _ _ hg => hg) h0
  exact ⟨s', by rw [hs]; exact congrArg (fun l => Except.ok (s', l)) hl⟩

end Verif.Props
