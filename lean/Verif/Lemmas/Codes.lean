import Verif.Lemmas.Decoded
import Verif.Lemmas.Indicator

/-
The codes stored by the constructors of the groups.
-/

namespace Verif

theorem MetarWind.new_code {m : Match} {x : MetarWind} (h : MetarWind.new m = .ok x) :
    x.code = some (Spec.shown m.string) := by
  unfold MetarWind.new at h
  simp only [bind_ok, pure_ok] at h
  obtain ⟨_, _, _, _, _, _, rfl⟩ := h
  exact groupCode_some _

theorem WindVariation.new_code {m : Match} {x : WindVariation} (h : WindVariation.new m = .ok x) :
    x.code = some (Spec.shown m.string) := by
  unfold WindVariation.new at h
  simp only [bind_ok, pure_ok] at h
  obtain ⟨_, _, _, _, rfl⟩ := h
  exact groupCode_some _

theorem prevailing_code {m : Match} {x : Visibility} (h : Verif.prevailing m = .ok x) :
    x.code = some (Spec.shown m.string) := by
  unfold Verif.prevailing at h
  simp only [bind_ok] at h
  obtain ⟨_, _, _, _, h⟩ := h
  split at h <;> simp only [pure_ok] at h <;> subst h <;> exact groupCode_some _

theorem minimumVisibility_code {m : Match} {x : Visibility} (h : Verif.minimumVisibility m = .ok x) :
    x.code = some (Spec.shown m.string) := by
  unfold Verif.minimumVisibility at h
  simp only [bind_ok, pure_ok] at h
  obtain ⟨_, _, rfl⟩ := h
  exact groupCode_some _

theorem RunwayRange.new_code {m : Match} {x : RunwayRange} (h : RunwayRange.new m = .ok x) :
    x.code = some (Spec.shown m.string) := by
  unfold RunwayRange.new at h
  simp only [bind_ok, pure_ok] at h
  obtain ⟨_, _, _, _, rfl⟩ := h
  exact groupCode_some _

theorem Cloud.fromMetar_code {m : Match} {x : Cloud} (h : Cloud.fromMetar m = .ok x) :
    x.code = some (Spec.shown m.string) := by
  unfold Cloud.fromMetar at h
  simp only at h
  split at h
  · simp only [bind_ok, pure_ok] at h
    obtain ⟨_, _, rfl⟩ := h
    exact groupCode_some _
  · split at h
    · simp only [bind_ok, pure_ok] at h
      obtain ⟨_, _, rfl⟩ := h
      exact groupCode_some _
    · simp only [bind_ok, pure_ok] at h
      obtain ⟨_, _, _, _, rfl⟩ := h
      exact groupCode_some _

theorem Temperatures.new_code {m : Match} {x : Temperatures} (h : Temperatures.new m = .ok x) :
    x.code = some (Spec.shown m.string) := by
  unfold Temperatures.new at h
  simp only [bind_ok, pure_ok] at h
  obtain ⟨_, _, _, _, rfl⟩ := h
  exact groupCode_some _

theorem MetarPressure.new_code {m : Match} {x : MetarPressure} (h : MetarPressure.new m = .ok x) :
    x.code = some (Spec.shown m.string) := by
  unfold MetarPressure.new at h
  simp only at h
  split at h
  · simp only [bind_ok, pure_ok] at h
    obtain ⟨_, _, rfl⟩ := h
    exact groupCode_some _
  · simp only [bind_ok, pure_ok] at h
    obtain ⟨_, _, _, _, rfl⟩ := h
    exact groupCode_some _

theorem SeaState.new_code {m : Match} {x : SeaState} (h : SeaState.new m = .ok x) :
    x.code = some (Spec.shown m.string) := by
  unfold SeaState.new at h
  simp only [bind_ok, pure_ok] at h
  obtain ⟨_, _, rfl⟩ := h
  exact groupCode_some _

theorem Windshear.new_code (m : Match) : (Windshear.new m).code = some (Spec.shown m.string) := by
  show groupCode (some (replace m.string py!"_" py!" ")) = _
  rw [groupCode_some, ← shown_eq, shown_shown]

theorem Station.new_code {db : Database} {g : PyStr} {s : Station}
    (h : Station.new db (some g) py!"ICAO" = .ok s) : s.code = some (Spec.shown g) := by
  cases h
  exact groupCode_some _

theorem Time.new_code {now : Now} {code mi h d : Option PyStr} {mo y : Option Int} {t : Time}
    (ht : Time.new now code mi h d mo y = .ok t) : t.code = groupCode code := by
  unfold Time.new at ht
  simp only at ht
  split at ht
  · cases ht
  · cases ht; rfl

theorem Time.fromMetar_code {now : Now} {m : Option Match} {mo y : Option Int} {t : Time}
    (ht : Time.fromMetar now m y mo = .ok t) : t.code = m.map fun m => Spec.shown m.string := by
  unfold Time.fromMetar at ht
  split at ht
  · exact (Time.new_code ht).trans rfl
  · rw [Time.new_code ht, groupCode_some]; rfl

theorem Valid.fromTaf_code {m : Option Match} {t : DT} {v : Valid} (h : Valid.fromTaf m t = .ok v) :
    v.code = m.map fun m => Spec.shown m.string := by
  unfold Valid.fromTaf at h
  cases m with
  | none =>
    simp only [bind_ok, pure_ok] at h
    obtain ⟨_, _, _, _, _, _, rfl⟩ := h
    rfl
  | some m =>
    simp only [bind_ok] at h
    obtain ⟨_, _, _, _, _, _, _, _, _, _, _, _, _, _, h⟩ := h
    split at h <;> simp only [bind_ok, pure_ok] at h
    · obtain ⟨_, _, _, _, _, _, rfl⟩ := h
      exact groupCode_some _
    · obtain ⟨_, _, _, _, _, _, rfl⟩ := h
      exact groupCode_some _

theorem TafTemperature.new_code {m : Match} {t : DT} {x : TafTemperature}
    (h : TafTemperature.new m t = .ok x) : x.code = some (Spec.shown m.string) := by
  unfold TafTemperature.new at h
  simp only [bind_ok, pure_ok] at h
  obtain ⟨_, _, _, _, _, _, _, _, _, _, _, _, rfl⟩ := h
  exact groupCode_some _

theorem changeIndicator_code {m : Match} {c tr : Option PyStr} (h : changeIndicator m = .ok (c, tr)) :
    c = some (Spec.shown m.string) := by
  unfold changeIndicator at h
  split at h
  · simp only [Except.ok.injEq, Prod.mk.injEq] at h
    rw [← h.1, groupCode_some]
  · split at h
    · split at h
      · simp only [bind_ok, pure_ok, Prod.mk.injEq] at h
        obtain ⟨_, _, _, _, h, _⟩ := h
        rw [← h, groupCode_some]
      · simp only [bind_ok] at h
        obtain ⟨_, _, h⟩ := h
        cases h
      · cases h
    · simp only [Except.ok.injEq, Prod.mk.injEq] at h
      rw [← h.1, groupCode_some]

/-- Underscores do not matter for a beginning without blanks and underscores. -/
theorem shown_startsWith (g : PyStr) {p : PyStr} (h1 : 32 ∉ p) (h2 : 95 ∉ p) :
    startsWith (Spec.shown g) p = startsWith g p := by
  induction p generalizing g with
  | nil => cases g <;> rfl
  | cons c p ih =>
    simp only [List.mem_cons, not_or] at h1 h2
    cases g with
    | nil => rfl
    | cons d g =>
      have := ih g h1.2 h2.2
      unfold Spec.shown startsWith at this ⊢
      simp only [List.map_cons, List.isPrefixOf_cons_cons]
      rw [this]
      split
      · next hd =>
        subst hd
        have e1 : (c == 32) = false := by simpa using Ne.symm h1.1
        have e2 : (c == 95) = false := by simpa using Ne.symm h2.1
        rw [e1, e2]
      · rfl

/-! ### From readings to codes -/

theorem Spec.FromGroup.code {α : Type} {c : List (PyStr × Nat)} {i : Nat} {re : RE}
    {f : Match → Except Exc α} {d x : α} (h : Spec.FromGroup c i re f d x) {code : α → Option PyStr}
    (hf : ∀ m x, f m = .ok x → code x = some (Spec.shown m.string)) :
    Spec.CodeFrom c i (code d) (code x) := by
  rcases h with ⟨g, m, hg, hm, hx⟩ | ⟨hg, rfl⟩
  · exact .inl ⟨g, hg, by rw [hf m x hx, RE.match_string hm]⟩
  · exact .inr ⟨hg, rfl⟩

theorem Spec.FromGroups.code {α : Type} {c : List (PyStr × Nat)} {lo hi : Nat} {re : RE}
    {f : Match → Except Exc α} {xs : List α} (h : Spec.FromGroups c lo hi re f xs)
    {code : α → Option PyStr}
    (hf : ∀ m x, f m = .ok x → code x = some (Spec.shown m.string)) :
    xs.map code = Spec.codes c lo hi := by
  unfold Spec.FromGroups at h
  unfold Spec.codes
  generalize Spec.taken c lo hi = l at h
  induction h with
  | nil => rfl
  | cons h1 _ ih =>
    obtain ⟨m, hm, hx⟩ := h1
    rw [List.map_cons, List.map_cons, ih, hf m _ hx, RE.match_string hm]

theorem Spec.FromLast.code {α : Type} {c : List (PyStr × Nat)} {lo hi : Nat} {re : RE}
    {f : Match → Except Exc α} {d x : α} (h : Spec.FromLast c lo hi re f d x)
    {code : α → Option PyStr}
    (hf : ∀ m x, f m = .ok x → code x = some (Spec.shown m.string)) :
    code x = ((Spec.codes c lo hi).getLast?).getD (code d) := by
  unfold Spec.codes
  rcases h with ⟨g, m, hg, hm, hx⟩ | ⟨hg, rfl⟩
  · rw [List.getLast?_map, hg, hf m x hx, RE.match_string hm]; rfl
  · rw [hg]; rfl

end Verif
