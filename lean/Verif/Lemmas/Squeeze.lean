import Verif.Lemmas.Blanks
import Verif.Model.MetarGroups

/-
The clean-up of the text of wind and weather: pieces joined by blanks, where some are empty.
-/

namespace Verif

/-- `re.sub(r"\s{2,}", " ", s)`. -/
def sq (s : PyStr) : PyStr := spaces2RE.sub py!" " s 0

theorem spaces2_match (s : PyStr) :
    spaces2RE.match s =
      if 2 ≤ (s.takeWhile isSpace).length then some ⟨s, (s.takeWhile isSpace).length, []⟩
      else none := by
  have hsp : CC.mem CC.space = isSpace := rfl
  have hlen : (s.takeWhile isSpace).length ≤ s.length := (List.takeWhile_sublist _).length_le
  have hm : RE.m s spaces2RE (0, []) = downFrom 0 [] 2 (s.takeWhile isSpace).length := by
    show RE.m s (RE.rep .space 2 none) (0, []) = _
    simp only [RE.m, runLen_eq, hsp, Option.getD_none, List.drop_zero, Nat.min_eq_right hlen]
  unfold RE.match
  rw [hm, downFrom_head]
  by_cases h2 : 2 ≤ (s.takeWhile isSpace).length <;> simp [h2]

theorem sq_eq (s : PyStr) : sq s = spaces2RE.subGo [32] none 0 s := rfl

theorem sq_nil : sq [] = [] := by rw [sq_eq, RE.subGo_nil]

theorem sq_cons {c : Nat} {t : PyStr} (h : isSpace c = false) : sq (c :: t) = c :: sq t := by
  rw [sq_eq, sq_eq]
  apply RE.subGo_none
  rw [spaces2_match]
  simp [h]

theorem sq_run {w rest : PyStr} (h0 : w ≠ []) (hw : ∀ c ∈ w, isSpace c = true)
    (hr : ∀ c, rest.head? = some c → isSpace c = false) :
    sq (w ++ rest) = (if 2 ≤ w.length then [32] else w) ++ sq rest := by
  have hm := spaces2_match (w ++ rest)
  rw [takeWhile_run hw hr] at hm
  rw [sq_eq, sq_eq]
  by_cases h2 : 2 ≤ w.length
  · rw [if_pos h2] at hm
    rw [if_pos h2, RE.subGo_some hm (by simp; omega) (by simp) (by simp [h0])]
    simp
  · obtain ⟨c, rfl⟩ : ∃ c, w = [c] := by
      match w, h0, h2 with
      | [c], _, _ => exact ⟨c, rfl⟩
      | _ :: _ :: _, _, h2 => simp at h2
    rw [if_neg h2] at hm
    rw [if_neg h2]
    exact RE.subGo_none hm

/-- Ends in a letter, no two blanks in a row. -/
def tidy : PyStr → Bool
  | [] => false
  | [c] => !isSpace c
  | c :: d :: t => (!isSpace c || !isSpace d) && tidy (d :: t)

/-- Begins with a letter, too. -/
def phrase (p : PyStr) : Bool := tidy p && p.head?.any fun c => !isSpace c

theorem sq_tidy (p rest : PyStr) (h : tidy p = true) : sq (p ++ rest) = p ++ sq rest := by
  match p, h with
  | [c], h =>
    simp only [tidy, Bool.not_eq_true'] at h
    exact sq_cons h
  | c :: d :: t, h =>
    simp only [tidy, Bool.and_eq_true, Bool.or_eq_true, Bool.not_eq_true'] at h
    have ih := sq_tidy (d :: t) rest h.2
    by_cases hc : isSpace c = true
    · have hd : isSpace d = false := by
        rcases h.1 with h | h
        · rw [hc] at h; cases h
        · exact h
      have := sq_run (w := [c]) (rest := (d :: t) ++ rest) (by simp) (by simpa using hc)
        (by simpa using hd)
      simp only [List.cons_append, List.nil_append] at this ih ⊢
      rw [this, ih]
      simp
    · have := sq_cons (t := (d :: t) ++ rest) (by simpa using hc)
      simp only [List.cons_append] at this ih ⊢
      rw [this, ih]

theorem phrase_head {p : PyStr} (h : phrase p = true) : ∃ c t, p = c :: t ∧ isSpace c = false := by
  unfold phrase at h
  cases p with
  | nil => simp [tidy] at h
  | cons c t => exact ⟨c, t, rfl, by simp at h; exact h.2⟩

theorem phrase_ne {p : PyStr} (h : phrase p = true) : p ≠ [] := by
  obtain ⟨c, t, rfl, -⟩ := phrase_head h; simp

theorem phrase_tidy {p : PyStr} (h : phrase p = true) : tidy p = true := by
  unfold phrase at h; simp only [Bool.and_eq_true] at h; exact h.1

theorem tidy_last (p : PyStr) (h : tidy p = true) :
    ∀ c, p.getLast? = some c → isSpace c = false := by
  match p, h with
  | [c], h =>
    simp only [tidy, Bool.not_eq_true'] at h
    simpa using h
  | c :: d :: t, h =>
    simp only [tidy, Bool.and_eq_true] at h
    intro x hx
    rw [List.getLast?_cons_cons] at hx
    exact tidy_last (d :: t) h.2 x hx

theorem tidy_of_all (p : PyStr) (h0 : p ≠ []) (h : ∀ c ∈ p, isSpace c = false) : tidy p = true := by
  match p, h0 with
  | [c], _ => simp [tidy, h c (by simp)]
  | c :: d :: t, _ =>
    simp only [tidy, h c (by simp), Bool.not_false, Bool.true_or, Bool.true_and]
    exact tidy_of_all (d :: t) (by simp) (fun x hx => h x (by simp_all))

theorem tidy_append (a b : PyStr) (ha : tidy a = true) (hb : tidy b = true) : tidy (a ++ b) = true := by
  match a, ha with
  | [c], ha =>
    simp only [tidy, Bool.not_eq_true'] at ha
    cases b with
    | nil => simp [tidy] at hb
    | cons d t => simp [tidy, ha, hb]
  | c :: d :: t, ha =>
    simp only [tidy, Bool.and_eq_true] at ha
    have := tidy_append (d :: t) b ha.2 hb
    simp only [List.cons_append] at this ⊢
    simp only [tidy, this, Bool.and_true]
    exact ha.1

theorem phrase_append {a b : PyStr} (ha : phrase a = true) (hb : tidy b = true) :
    phrase (a ++ b) = true := by
  obtain ⟨c, t, rfl, hc⟩ := phrase_head ha
  have := tidy_append _ b (phrase_tidy ha) hb
  unfold phrase
  rw [this]
  simp [hc]

theorem phrase_of_all {p : PyStr} (h0 : p ≠ []) (h : ∀ c ∈ p, isSpace c = false) : phrase p = true := by
  unfold phrase
  rw [tidy_of_all p h0 h]
  cases p with
  | nil => exact absurd rfl h0
  | cons c t => simp [h c (by simp)]

/-! ### Joining -/

/-- The pieces, each after a blank. -/
def spaced (ws : List PyStr) : PyStr := ws.flatMap (32 :: ·)

theorem join_cons_spaced (w : PyStr) (ws : List PyStr) : join [32] (w :: ws) = w ++ spaced ws := by
  induction ws generalizing w with
  | nil => simp [join, spaced]
  | cons v vs ih => simp [join, ih, spaced]

/-- The pieces that are not empty. -/
def present (ws : List PyStr) : List PyStr := ws.filter (· ≠ [])

theorem sq_spaced (ws : List PyStr) (h : ∀ w ∈ ws, w = [] ∨ phrase w = true) (n : Nat) :
    ∃ trail, (∀ c ∈ trail, isSpace c = true) ∧
      sq (List.replicate n 32 ++ spaced ws) = spaced (present ws) ++ trail := by
  have hsp : ∀ k, ∀ c ∈ List.replicate k 32, isSpace c = true := by
    intro k c hc
    rw [List.eq_of_mem_replicate hc]; decide
  induction ws generalizing n with
  | nil =>
    cases n with
    | zero => exact ⟨[], by simp, by simp [spaced, present, sq_nil]⟩
    | succ n =>
      have hr := sq_run (w := List.replicate (n + 1) 32) (rest := []) (by simp) (hsp _) (by simp)
      rw [sq_nil, List.append_nil, List.append_nil] at hr
      refine ⟨_, ?_, by simpa [spaced, present] using hr⟩
      split
      · intro c hc
        simp at hc; subst hc; decide
      · exact hsp _
  | cons w ws ih =>
    have ih := ih (fun v hv => h v (List.mem_cons_of_mem _ hv))
    rcases h w (by simp) with rfl | hw
    · obtain ⟨trail, h1, h2⟩ := ih (n + 1)
      refine ⟨trail, h1, ?_⟩
      rw [List.replicate_succ'] at h2
      simpa [spaced, present] using h2
    · obtain ⟨trail, h1, h2⟩ := ih 0
      obtain ⟨c, t, rfl, hc⟩ := phrase_head hw
      refine ⟨trail, h1, ?_⟩
      have hr := sq_run (w := List.replicate n 32 ++ [32]) (rest := (c :: t) ++ spaced ws) (by simp)
        (by intro d hd; rw [← List.replicate_succ'] at hd; exact hsp _ d hd)
        (by simpa using hc)
      rw [sq_tidy _ _ (phrase_tidy hw)] at hr
      simp only [List.replicate_zero, List.nil_append] at h2
      rw [h2] at hr
      have e1 : List.replicate n 32 ++ spaced ((c :: t) :: ws) =
          List.replicate n 32 ++ [32] ++ ((c :: t) ++ spaced ws) := by simp [spaced]
      rw [e1, hr]
      have e2 : (if 2 ≤ (List.replicate n 32 ++ [32]).length then [32]
          else List.replicate n 32 ++ [32]) = [32] := by
        cases n with
        | zero => rfl
        | succ n => rw [if_pos (by simp)]
      rw [e2]
      simp [present, spaced]

theorem spaced_last {p : PyStr} (ps : List PyStr) (hp : tidy p = true)
    (h : ∀ w ∈ ps, phrase w = true) :
    ∀ c, (p ++ spaced ps).getLast? = some c → isSpace c = false := by
  induction ps generalizing p with
  | nil => simpa [spaced] using tidy_last p hp
  | cons v vs ih =>
    intro c hc
    refine ih (p := p ++ 32 :: v) ?_ (fun w hw => h w (List.mem_cons_of_mem _ hw)) c ?_
    · have hv := h v (by simp)
      obtain ⟨d, t, rfl, hd⟩ := phrase_head hv
      refine tidy_append _ _ hp ?_
      simp [tidy, hd, phrase_tidy hv]
    · simpa [spaced] using hc

/-- Joining by blanks, squeezing and stripping leaves the non-empty pieces joined by blanks. -/
theorem squeezed (ws : List PyStr) (h : ∀ w ∈ ws, w = [] ∨ phrase w = true) :
    strip (sq (join [32] ws)) = join [32] (present ws) := by
  have hp : ∀ w ∈ present ws, phrase w = true := by
    intro w hw
    simp only [present, List.mem_filter, decide_eq_true_eq] at hw
    exact (h w hw.1).resolve_left hw.2
  have core : ∀ (lead : PyStr) (trail : PyStr) (ps : List PyStr), (∀ c ∈ lead, isSpace c = true) →
      (∀ c ∈ trail, isSpace c = true) → (∀ w ∈ ps, phrase w = true) →
      strip (lead ++ (join [32] ps ++ trail)) = join [32] ps := by
    intro lead trail ps hl ht hps
    unfold strip
    rw [lstrip_append hl]
    cases ps with
    | nil =>
      have : lstrip trail = [] := by
        have := lstrip_append (s := []) ht
        simpa [lstrip] using this
      simp [join, this, rstrip]
    | cons p qs =>
      rw [join_cons_spaced]
      have hpp := hps p (by simp)
      obtain ⟨c, t, rfl, hc⟩ := phrase_head hpp
      have e : lstrip ((c :: t ++ spaced qs) ++ trail) = (c :: t ++ spaced qs) ++ trail := by
        unfold lstrip
        exact dropWhile_id (by simpa using hc)
      rw [e, rstrip_append ht]
      have hlast := spaced_last qs (phrase_tidy hpp) (fun w hw => hps w (List.mem_cons_of_mem _ hw))
      unfold rstrip
      rw [dropWhile_id (fun c h => hlast c (by rwa [List.head?_reverse] at h)), List.reverse_reverse]
  cases ws with
  | nil => simp [join, sq_nil, strip, lstrip, rstrip, present]
  | cons w ws =>
    rw [join_cons_spaced]
    obtain ⟨trail, h1, h2⟩ := sq_spaced ws (fun v hv => h v (List.mem_cons_of_mem _ hv)) 0
    simp only [List.replicate_zero, List.nil_append] at h2
    rcases h w (by simp) with rfl | hw
    · rw [List.nil_append, h2]
      have e : present ([] :: ws) = present ws := by simp [present]
      rw [e] at hp ⊢
      cases hps : present ws with
      | nil =>
        have := core [] trail [] (by simp) h1 (by simp)
        simpa [join, spaced] using this
      | cons p qs =>
        rw [hps] at hp
        have := core [32] trail (p :: qs) (by simp; decide) h1 hp
        rw [join_cons_spaced] at this ⊢
        simpa [spaced] using this
    · rw [sq_tidy _ _ (phrase_tidy hw), h2]
      have e : present (w :: ws) = w :: present ws := by simp [present, phrase_ne hw]
      rw [e] at hp ⊢
      have := core [] trail (w :: present ws) (by simp) h1 hp
      rw [join_cons_spaced] at this ⊢
      simpa using this

/-! ### Dropping `None` -/

theorem replaceGo_beyond (a rest : PyStr) (h : 78 ∉ a) :
    replaceGo py!"None" [] 0 (a ++ rest) = a ++ replaceGo py!"None" [] 0 rest := by
  induction a with
  | nil => rfl
  | cons c t ih =>
    simp only [List.mem_cons, not_or] at h
    have : List.isPrefixOf py!"None" (c :: (t ++ rest)) = false := by
      show (78 == c && _) = false
      have : (78 == c) = false := by simpa using h.1
      rw [this]; rfl
    simp only [List.cons_append, replaceGo, this, Bool.false_eq_true, if_false, ih h.2]

theorem replaceGo_apart (rest : PyStr) :
    replaceGo py!"None" [] 0 (py!"None" ++ rest) = replaceGo py!"None" [] 0 rest := by
  rfl

theorem replace_apart (items : List (Option PyStr)) (h : ∀ s, some s ∈ items → 78 ∉ s) :
    replace (join [32] (items.map fmtO)) py!"None" [] = join [32] (items.map (·.getD [])) := by
  have key : ∀ (o : Option PyStr) (os : List (Option PyStr)), (∀ s, some s ∈ o :: os → 78 ∉ s) →
      replaceGo py!"None" [] 0 (join [32] ((o :: os).map fmtO)) =
        join [32] ((o :: os).map (·.getD [])) := by
    intro o os
    induction os generalizing o with
    | nil =>
      intro h
      cases o with
      | none => rfl
      | some s =>
        have := replaceGo_beyond s [] (h s (by simp))
        simpa [join, fmtO, replaceGo] using this
    | cons p ps ih =>
      intro h
      have ih := ih p (fun s hs => h s (List.mem_cons_of_mem _ hs))
      have e : ∀ f : Option PyStr → PyStr, join [32] ((o :: p :: ps).map f) =
          f o ++ ([32] ++ join [32] ((p :: ps).map f)) := by intro f; simp [join]
      rw [e, e]
      have hs := replaceGo_beyond [32] (join [32] ((p :: ps).map fmtO)) (by decide)
      cases o with
      | none =>
        show replaceGo py!"None" [] 0 (py!"None" ++ _) = _
        rw [replaceGo_apart, hs, ih]; rfl
      | some s =>
        show replaceGo py!"None" [] 0 (s ++ _) = _
        rw [replaceGo_beyond _ _ (h s (by simp)), hs, ih]; rfl
  unfold replace
  rw [if_neg (by decide)]
  cases items with
  | nil => rfl
  | cons o os => exact key o os h

/-- The text of weather: the descriptions there are, joined by blanks. -/
theorem weatherText_eq (items : List (Option PyStr))
    (h : ∀ s, some s ∈ items → 78 ∉ s ∧ phrase s = true) :
    weatherText items = join [32] (items.filterMap id) := by
  unfold weatherText
  have e : (py!" " : PyStr) = [32] := rfl
  rw [e, replace_apart items (fun s hs => (h s hs).1)]
  have := squeezed (items.map (·.getD [])) (by
    intro w hw
    simp only [List.mem_map] at hw
    obtain ⟨o, ho, rfl⟩ := hw
    cases o with
    | none => exact Or.inl rfl
    | some s => exact Or.inr (h s ho).2)
  unfold sq at this
  rw [e] at this
  rw [this]
  congr 1
  have : ∀ items : List (Option PyStr), (∀ s, some s ∈ items → s ≠ []) →
      present (items.map (·.getD [])) = items.filterMap id := by
    intro items
    induction items with
    | nil => intro _; rfl
    | cons o os ih =>
      intro h
      have ih := ih (fun s hs => h s (List.mem_cons_of_mem _ hs))
      cases o with
      | none => simpa [present] using ih
      | some s =>
        have hs : s ≠ [] := h s (by simp)
        have e : present (s :: os.map (·.getD [])) = s :: present (os.map (·.getD [])) := by
          simp [present, hs]
        simp only [List.map_cons, Option.getD_some, e, ih, List.filterMap_cons, id]
  exact this items (fun s hs => phrase_ne (h s hs).2)

end Verif
