import Verif.Spec.Methods
import Verif.Lemmas.TafSections
import Verif.Lemmas.Blanks
import Verif.Lemmas.Cut
import Verif.Lemmas.Json

/-
The methods of `str` and `dict` meet their descriptions.
-/

namespace Verif
open Spec

theorem Spec.Leftmost.unique {sub s a b a' b' : PyStr} (h : Leftmost sub s a b) (h' : Leftmost sub s a' b') :
    a = a' ∧ b = b' := by
  have h1 := h.first _ _ h'.here
  have h2 := h'.first _ _ h.here
  have e := h.here.symm.trans h'.here
  rw [List.append_assoc, List.append_assoc] at e
  obtain ⟨e1, e2⟩ := List.append_inj e (by omega)
  exact ⟨e1, List.append_cancel_left e2⟩

theorem Spec.ReplacedAll.unique {old new s t t' : PyStr} (h : ReplacedAll old new s t) (h' : ReplacedAll old new s t') :
    t = t' := by
  induction h generalizing t' with
  | none hn =>
    cases h' with
    | none _ => rfl
    | next hl _ => exact absurd ⟨_, _, hl.here⟩ hn
  | next hl _ ih =>
    cases h' with
    | none hn => exact absurd ⟨_, _, hl.here⟩ hn
    | next hl' hr' =>
      obtain ⟨rfl, rfl⟩ := hl.unique hl'
      rw [ih hr']

theorem replace_all {old : PyStr} (new : PyStr) (h0 : old ≠ []) (s : PyStr) : ReplacedAll old new s (replace s old new) := by
  refine replace_induction h0 (P := fun s => ReplacedAll old new s (replace s old new)) ?_ ?_ ?_ s
  · rw [replace_nil h0]
    refine .none ?_
    rintro ⟨a, b, h⟩
    have h1 := congrArg List.length h
    have h2 := List.length_pos_iff.2 h0
    simp only [List.length_append, List.length_nil] at h1
    omega
  · intro t ih
    rw [replace_hit h0]
    exact .next (a := []) ⟨by simp, by simp⟩ ih
  · intro c t hp ih
    rw [replace_miss hp]
    have step : ∀ a' b', c :: t = a' ++ old ++ b' → ∃ a'', a' = c :: a'' ∧ t = a'' ++ old ++ b' := by
      intro a' b' e
      cases a' with
      | nil => exact absurd ⟨b', e.symm⟩ hp
      | cons d a' =>
        simp only [List.cons_append, List.cons.injEq] at e
        exact ⟨a', by rw [e.1], e.2⟩
    generalize replace t old new = y at ih
    cases ih with
    | none hn =>
      refine .none ?_
      rintro ⟨a, b, h⟩
      obtain ⟨a', -, e⟩ := step a b h
      exact hn ⟨a', b, e⟩
    | @next _ a b u hl hr =>
      refine ReplacedAll.next (a := c :: a) ⟨by rw [hl.here]; rfl, ?_⟩ hr
      intro a' b' h
      obtain ⟨a'', rfl, e⟩ := step a' b' h
      have := hl.first _ _ e
      simp; omega

theorem strip_stripped (s : PyStr) : Stripped s (strip s) := by
  obtain ⟨r, hr, hs⟩ := rstrip_prefix (lstrip s)
  refine ⟨s.takeWhile isSpace, r, ?_, ?_, ?_⟩
  · rw [List.append_assoc]
    show s = s.takeWhile isSpace ++ (rstrip (lstrip s) ++ r)
    rw [← hr]
    exact List.takeWhile_append_dropWhile.symm
  · intro c hc
    rcases List.mem_append.1 hc with h | h
    · exact List.all_eq_true.1 (List.all_takeWhile (l := s) (p := isSpace)) c h
    · exact hs c h
  · rintro c (h | h)
    · exact strip_head s c h
    · exact strip_last s c h

theorem Spec.Stripped.eq {s t : PyStr} (h : Stripped s t) : t = strip s := by
  obtain ⟨l, r, rfl, hs, hc⟩ := h
  have hl : ∀ c ∈ l, isSpace c = true := fun c h => hs c (by simp [h])
  have hr : ∀ c ∈ r, isSpace c = true := fun c h => hs c (by simp [h])
  unfold strip
  rw [List.append_assoc, lstrip_append hl]
  cases t with
  | nil =>
    have := lstrip_append (s := []) hr
    simp only [List.append_nil] at this
    rw [List.nil_append, this]
    rfl
  | cons c t =>
    have e : lstrip (c :: t ++ r) = c :: t ++ r := by
      unfold lstrip
      rw [List.cons_append, List.dropWhile_cons_of_neg]
      rw [hc c (.inl rfl)]
      decide
    rw [e, rstrip_append hr]
    have := strip_id (s := c :: t) (fun d h => hc d (.inl h)) (fun d h => hc d (.inr h))
    have e2 : lstrip (c :: t) = c :: t := by
      unfold lstrip
      rw [List.dropWhile_cons_of_neg]
      rw [hc c (.inl rfl)]
      decide
    unfold strip at this
    rw [e2] at this
    exact this.symm

theorem decimal_digits {t : PyStr} (h : ∀ c ∈ t, 48 ≤ c ∧ c ≤ 57) :
    t.foldl (fun v c => 10 * v + (c - 48)) 0 = digitsVal t := decimalValue_digits h

theorem ascii_of_range {t : PyStr} (h : ∀ c ∈ t, 48 ≤ c ∧ c ≤ 57) : ∀ c ∈ t, ascii.mem c = true := by
  intro c hc
  have := h c hc
  simp only [ascii, CC.mem, CC.ranges, inRanges, List.any_cons, List.any_nil, Bool.or_false, Bool.and_eq_true, Nat.ble_eq]
  exact this

theorem natStr_decimal (n : Nat) : DecimalText n (natStr n) := by
  have hr := ascii_range (natStr_ascii n)
  refine ⟨hr, natStr_ne n, by rw [decimal_digits hr, natStr_val], fun h => ?_⟩
  rcases Nat.eq_zero_or_pos n with rfl | hn
  · rfl
  · exact absurd h (natStr_head hn)

theorem Spec.DecimalText.eq {n : Nat} {t : PyStr} (h : DecimalText n t) : t = natStr n := by
  have hv := h.value
  rw [decimal_digits h.digits] at hv
  have hp := padNat_of_ascii (ascii_of_range h.digits) (List.length_pos_iff.2 h.some)
  rw [hv] at hp
  unfold padNat at hp
  simp only at hp
  cases hk : t.length - (natStr n).length with
  | zero => rw [hk] at hp; simpa using hp.symm
  | succ k =>
    rw [hk] at hp
    have h1 := h.lead (by rw [← hp]; rfl)
    have h2 := congrArg List.length hp
    have h3 := List.length_pos_iff.2 (natStr_ne n)
    rw [h1] at h2
    simp at h2
    omega

/-! ### Dictionaries -/

section
variable {α : Type}

theorem entry_unique {d : List (PyStr × α)} (h : Distinct d) {k : PyStr} {v w : α} (h1 : (k, v) ∈ d) (h2 : (k, w) ∈ d) :
    v = w := by
  induction d with
  | nil => cases h1
  | cons e d ih =>
    unfold Distinct at h
    simp only [List.map_cons, List.nodup_cons] at h
    have out : ∀ x, (k, x) ∈ d → k ∈ d.map (·.1) := fun x hx => List.mem_map.2 ⟨_, hx, rfl⟩
    rcases List.mem_cons.1 h1 with rfl | h1' <;> rcases List.mem_cons.1 h2 with h2' | h2'
    · cases h2'; rfl
    · exact absurd (out _ h2') h.1
    · subst h2'; exact absurd (out _ h1') h.1
    · exact ih h.2 h1' h2'

theorem lookup_entry (d : List (PyStr × α)) (k : PyStr) : Entry d k (d.lookup k) := by
  induction d with
  | nil => intro v h; cases h
  | cons e d ih =>
    obtain ⟨k', v'⟩ := e
    rw [List.lookup_cons]
    by_cases hk : k = k'
    · subst hk
      simp only [beq_self_eq_true]
      show (k, v') ∈ _
      simp
    · have : (k == k') = false := by simpa using hk
      rw [this]
      simp only
      revert ih
      generalize d.lookup k = o
      cases o with
      | none =>
        intro ih v hv
        rcases List.mem_cons.1 hv with e | e
        · cases e; exact hk rfl
        · exact ih v e
      | some v => intro ih; exact List.mem_cons_of_mem _ ih

theorem entry_lookup {d : List (PyStr × α)} (h : Distinct d) {k : PyStr} {o : Option α} (he : Entry d k o) :
    o = d.lookup k := by
  have hl := lookup_entry d k
  revert hl
  generalize d.lookup k = p
  intro hl
  cases o with
  | none =>
    cases p with
    | none => rfl
    | some v => exact absurd hl (he v)
  | some v =>
    cases p with
    | none => exact absurd he (hl v)
    | some w => rw [entry_unique h he hl]

/-- Dictionaries with the same keys in the same order and the same entries. -/
theorem dict_ext {d e : List (PyStr × α)} (hd : Distinct d) (hk : d.map (·.1) = e.map (·.1))
    (he : ∀ p ∈ d, p ∈ e) : d = e := by
  have hde : Distinct e := by unfold Distinct; rw [← hk]; exact hd
  have hl : d.length = e.length := by
    have := congrArg List.length hk
    simpa using this
  refine List.ext_getElem hl fun i h1 h2 => ?_
  have hki : (d[i]).1 = (e[i]).1 := by
    have := congrArg (fun l => l[i]?) hk
    simp only [List.getElem?_map, List.getElem?_eq_getElem h1, List.getElem?_eq_getElem h2, Option.map_some,
      Option.some.injEq] at this
    exact this
  have m1 := he _ (List.getElem_mem h1)
  have m2 := List.getElem_mem h2
  refine Prod.ext hki ?_
  exact entry_unique (k := (d[i]).1) hde m1 (by rw [hki]; exact m2)

theorem Spec.Put.unique {d e f : List (PyStr × α)} {k : PyStr} {v : α} (h : Put d k v e) (h' : Put d k v f) : e = f := by
  refine dict_ext h.distinct (h.order.trans h'.order.symm) ?_
  rintro ⟨k', w⟩ hm
  by_cases hk : k' = k
  · subst hk
    rw [entry_unique h.distinct hm h.there]
    exact h'.there
  · exact (h'.others k' hk w).2 ((h.others k' hk w).1 hm)

end

theorem dset_keys (d : List (PyStr × PyVal)) (k : PyStr) (v : PyVal) :
    (dset d k v).map (·.1) = if k ∈ d.map (·.1) then d.map (·.1) else d.map (·.1) ++ [k] := by
  induction d with
  | nil => rfl
  | cons e d ih =>
    obtain ⟨k', v'⟩ := e
    rw [dset]
    by_cases hk : k' = k
    · subst hk; simp
    · rw [if_neg hk, List.map_cons, ih]
      simp only [List.map_cons, List.mem_cons, Ne.symm hk, false_or]
      split <;> rfl

theorem dset_put {d : List (PyStr × PyVal)} (h : Distinct d) (k : PyStr) (v : PyVal) : Put d k v (dset d k v) := by
  refine ⟨?_, ?_, ?_, dset_keys d k v⟩
  · unfold Distinct at *
    rw [dset_keys]
    split
    · exact h
    · rename_i hn
      rw [List.nodup_append]
      refine ⟨h, by simp, ?_⟩
      intro a ha b hb e
      simp only [List.mem_singleton] at hb
      subst hb e
      exact hn ha
  · clear h
    induction d with
    | nil => simp [dset]
    | cons e d ih =>
      obtain ⟨k', v'⟩ := e
      rw [dset]
      split
      · simp
      · exact List.mem_cons_of_mem _ ih
  · intro k' hk w
    clear h
    induction d with
    | nil => simp [dset, hk]
    | cons e d ih =>
      obtain ⟨k'', v''⟩ := e
      rw [dset]
      split
      · rename_i he
        subst he
        simp [hk]
      · simp [ih]

theorem dupdate_putAll {d : List (PyStr × PyVal)} (h : Distinct d) (e : List (PyStr × PyVal)) : PutAll d e (dupdate d e) := by
  induction e generalizing d with
  | nil => exact .done
  | cons p e ih =>
    obtain ⟨k, v⟩ := p
    exact .next (dset_put h k v) (ih (dset_put h k v).distinct)

theorem Spec.PutAll.unique {α : Type} {d e f g : List (PyStr × α)} (h : PutAll d e f) (h' : PutAll d e g) : f = g := by
  induction h generalizing g with
  | done => cases h'; rfl
  | next hp _ ih =>
    cases h' with
    | next hp' hr' =>
      obtain rfl := hp.unique hp'
      exact ih hr'

end Verif
