import Verif.Lemmas.Raises

/-
Groups that are all taken: the handler that takes each of them is known in advance.
-/

namespace Verif

open Spec

variable {σ : Type}

/-- Each group is taken by the handler at the given position, which is the first one from `b` on that
accepts it. -/
def Fits (hs : List (Handler σ)) : Nat → List (PyStr × Nat) → Prop
  | _, [] => True
  | b, (g, i) :: rest => FirstAt hs b g (some i) ∧ Fits hs (i + 1) rest

theorem tryHandlers_first {hs : List (Handler σ)} {b i : Nat} {g : PyStr}
    (h : FirstAt hs b g (some i)) :
    ∃ m h', tryHandlers (hs.drop b) g 0 = some (i - b + 1, m, h') := by
  obtain ⟨hb, ⟨hd, hi, hm⟩, hr⟩ := h
  cases ht : tryHandlers (hs.drop b) g 0 with
  | none =>
    rw [tryHandlers_none] at ht
    have : hd ∈ hs.drop b := by
      refine List.mem_of_getElem? (i := i - b) ?_
      rw [List.getElem?_drop, show b + (i - b) = i by omega, hi]
    rw [ht hd this] at hm
    cases hm
  | some x =>
    obtain ⟨n, m, h'⟩ := x
    obtain ⟨j, e, hj, hmj, hlt⟩ := tryHandlers_some ht
    rw [List.getElem?_drop] at hj
    have : j = i - b := by
      rcases Nat.lt_trichotomy j (i - b) with h | h | h
      · exact (hr (b + j) (by omega) (by omega) ⟨h', hj, by rw [hmj]; rfl⟩).elim
      · exact h
      · have := hlt (i - b) hd h (by rw [List.getElem?_drop, show b + (i - b) = i by omega, hi])
        rw [this] at hm
        cases hm
    subst this
    exact ⟨m, h', by rw [e]; simp⟩

theorem Fits.assign {hs : List (Handler σ)} {b : Nat} {c : List (PyStr × Nat)} (h : Fits hs b c) :
    assign hs b (c.map (·.1)) = c.map fun x => some x.2 := by
  induction c generalizing b with
  | nil => rfl
  | cons x rest ih =>
    obtain ⟨g, i⟩ := x
    obtain ⟨h1, h2⟩ := h
    obtain ⟨m, h', ht⟩ := tryHandlers_first h1
    have hb : b ≤ i := h1.1
    simp only [List.map_cons, Verif.assign, ht]
    rw [show b + (i - b + 1) = i + 1 by omega, ih h2]
    rfl

theorem consumed_all (c : List (PyStr × Nat)) :
    consumed (c.map (·.1)) (c.map fun x => some x.2) = c ∧
    leftover (c.map (·.1)) (c.map fun x => some x.2) = [] := by
  induction c with
  | nil => exact ⟨rfl, rfl⟩
  | cons x rest ih =>
    unfold consumed leftover at *
    simp only [List.map_cons, List.zip_cons_cons, List.filterMap_cons, Option.map_some,
      Option.isNone_some, Bool.false_eq_true, ↓reduceIte, ih, and_self]

theorem Fits.decodes {hs : List (Handler σ)} {c : List (PyStr × Nat)} (h : Fits hs 0 c) :
    Decodes hs (c.map (·.1)) c := by
  rw [decodes_iff, h.assign, (consumed_all c).1]

theorem Fits.leftover {hs : List (Handler σ)} {c : List (PyStr × Nat)} (h : Fits hs 0 c) :
    Spec.leftover (c.map (·.1)) (Verif.assign hs 0 (c.map (·.1))) = [] := by
  rw [h.assign, (consumed_all c).2]

/-- Groups at consecutive positions. -/
def place : Nat → List PyStr → List (PyStr × Nat)
  | _, [] => []
  | i, g :: gs => (g, i) :: place (i + 1) gs

theorem place_map (i : Nat) (gs : List PyStr) : (place i gs).map (·.1) = gs := by
  induction gs generalizing i with
  | nil => rfl
  | cons g gs ih => simp [place, ih]

theorem mem_place {i : Nat} {gs : List PyStr} {g : PyStr} {k : Nat} :
    (g, k) ∈ place i gs ↔ i ≤ k ∧ gs[k - i]? = some g := by
  induction gs generalizing i with
  | nil => simp [place]
  | cons x gs ih =>
    simp only [place, List.mem_cons, Prod.mk.injEq, ih]
    constructor
    · rintro (⟨rfl, rfl⟩ | ⟨h1, h2⟩)
      · simp
      · refine ⟨by omega, ?_⟩
        rw [show k - i = (k - (i + 1)) + 1 by omega]
        simpa using h2
    · rintro ⟨h1, h2⟩
      rcases Nat.eq_or_lt_of_le h1 with rfl | h
      · left; simp at h2; exact ⟨h2.symm, rfl⟩
      · right
        rw [show k - i = (k - (i + 1)) + 1 by omega] at h2
        exact ⟨by omega, by simpa using h2⟩

/-- A run of groups at consecutive positions from `i` on: every one is accepted at its position, and
the first one is refused between `b` and `i`. -/
structure RunAt (hs : List (Handler σ)) (b i : Nat) (gs : List PyStr) : Prop where
  accepts : ∀ k g, gs[k]? = some g → Accepts hs (i + k) g
  refuses : ∀ g, gs.head? = some g → ∀ j, b ≤ j → j < i → ¬ Accepts hs j g

theorem RunAt.mono {hs : List (Handler σ)} {b b' i : Nat} {gs : List PyStr} (h : RunAt hs b i gs)
    (hb : b ≤ b') : RunAt hs b' i gs :=
  ⟨h.accepts, fun g hg j h1 h2 => h.refuses g hg j (by omega) h2⟩

/-- The runs come one after the other. -/
def RunsAt (hs : List (Handler σ)) : Nat → List (Nat × List PyStr) → Prop
  | _, [] => True
  | b, (i, gs) :: rest => b ≤ i ∧ RunAt hs b i gs ∧ RunsAt hs (if gs = [] then b else i + gs.length) rest

theorem RunsAt.cons {hs : List (Handler σ)} {b0 b i n : Nat} {gs : List PyStr}
    {rest : List (Nat × List PyStr)} (h0 : b0 ≤ b) (h1 : b ≤ i) (h2 : RunAt hs b0 i gs)
    (hn : gs.length ≤ n) (h3 : ∀ b', b0 ≤ b' → b' ≤ i + n → RunsAt hs b' rest) :
    RunsAt hs b ((i, gs) :: rest) := by
  refine ⟨h1, h2.mono h0, h3 _ ?_ ?_⟩
  · split <;> omega
  · split <;> omega

theorem fits_consecutive {hs : List (Handler σ)} {i : Nat} {gs : List PyStr}
    {rest : List (PyStr × Nat)} (h : ∀ k g, gs[k]? = some g → Accepts hs (i + k) g)
    (hr : Fits hs (i + gs.length) rest) : Fits hs i (place i gs ++ rest) := by
  induction gs generalizing i with
  | nil => exact hr
  | cons g gs ih =>
    refine ⟨⟨Nat.le_refl _, h 0 g rfl, fun j h1 h2 => by omega⟩, ih (fun k g' hk => ?_) ?_⟩
    · have := h (k + 1) g' (by simpa using hk)
      rwa [show i + (k + 1) = i + 1 + k by omega] at this
    · rw [show i + 1 + gs.length = i + (g :: gs).length by simp; omega]
      exact hr

theorem RunsAt.fits {hs : List (Handler σ)} {b : Nat} {rs : List (Nat × List PyStr)}
    (h : RunsAt hs b rs) : Fits hs b (rs.flatMap fun x => place x.1 x.2) := by
  induction rs generalizing b with
  | nil => trivial
  | cons x rest ih =>
    obtain ⟨i, gs⟩ := x
    obtain ⟨h1, h2, h3⟩ := h
    cases gs with
    | nil => exact ih (by simpa using h3)
    | cons g gs =>
      simp only [List.flatMap_cons, place, List.cons_append]
      refine ⟨⟨h1, h2.accepts 0 g rfl, fun j e1 e2 => h2.refuses g rfl j e1 e2⟩, ?_⟩
      refine fits_consecutive (fun k g' hk => ?_) (ih ?_)
      · have := h2.accepts (k + 1) g' (by simpa using hk)
        rwa [show i + (k + 1) = i + 1 + k by omega] at this
      · rw [if_neg (by simp)] at h3
        rwa [show i + 1 + gs.length = i + (g :: gs).length by simp; omega]

/-! ### The groups taken at some positions -/

theorem taken_append (c d : List (PyStr × Nat)) (lo hi : Nat) :
    taken (c ++ d) lo hi = taken c lo hi ++ taken d lo hi := by
  simp [taken]

theorem taken_inside {i lo hi : Nat} {gs : List PyStr} (h1 : lo ≤ i) (h2 : i + gs.length ≤ hi + 1) :
    taken (place i gs) lo hi = gs := by
  induction gs generalizing i with
  | nil => rfl
  | cons g gs ih =>
    simp only [List.length_cons] at h2
    have := ih (i := i + 1) (by omega) (by omega)
    unfold taken at *
    simp only [place, List.filter_cons, decide_eq_true_eq]
    rw [if_pos ⟨h1, by omega⟩, List.map_cons, this]

theorem taken_outside {i lo hi : Nat} {gs : List PyStr} (h : i + gs.length ≤ lo ∨ hi < i) :
    taken (place i gs) lo hi = [] := by
  induction gs generalizing i with
  | nil => rfl
  | cons g gs ih =>
    simp only [List.length_cons] at h
    have := ih (i := i + 1) (by omega)
    unfold taken at *
    simp only [place, List.filter_cons, decide_eq_true_eq]
    rw [if_neg (by omega), this]

theorem mem_taken {c : List (PyStr × Nat)} {g : PyStr} {i : Nat} : (g, i) ∈ c ↔ g ∈ taken c i i := by
  simp only [taken, List.mem_map, List.mem_filter, decide_eq_true_eq]
  constructor
  · intro h; exact ⟨(g, i), ⟨h, by simp⟩, rfl⟩
  · rintro ⟨⟨g', j⟩, ⟨h, h2⟩, rfl⟩
    have : j = i := by simp at h2; omega
    subst this; exact h

/-! ### Methods that cannot fail on the groups they take -/

/-- The invariant `P` may use that a position was skipped; `T` holds of the positions taken. -/
theorem runs_post {hs : List (Handler σ)} {Q : Exc → Prop} {P : Nat → σ → Prop}
    {G : Nat → PyStr → Prop} {T : Nat → Prop} (mono : ∀ k s, ¬ T k → P k s → P (k + 1) s)
    (hall : AllIdx (HandlerOk Q P G) 0 hs) {gs : List PyStr} {index : Nat} {s : σ}
    {out : Except Exc σ} (hr : Runs hs (consumed gs (assign hs index gs)) s out)
    (hg : ∀ g i, (g, i) ∈ consumed gs (assign hs index gs) → G i g)
    (hT : ∀ j, index ≤ j → T j → j ∈ (consumed gs (assign hs index gs)).map (·.2)) (h0 : P index s) :
    Post Q (fun x => ∃ k, P k x) out := by
  have pmono : ∀ {k j s}, k ≤ j → (∀ i, k ≤ i → i < j → ¬ T i) → P k s → P j s := by
    intro k j s hkj hnot hp
    obtain ⟨d, rfl⟩ := Nat.exists_eq_add_of_le hkj
    induction d with
    | zero => exact hp
    | succ d ih =>
      exact mono (k + d) _ (hnot (k + d) (by omega) (by omega)) (ih (by omega) fun i h1 h2 => hnot i h1 (by omega))
  obtain ⟨hi, hp⟩ := @assign_used σ hs index gs
  have hu : (consumed gs (assign hs index gs)).map (·.2) = used (assign hs index gs) := by
    have : ∀ (gs : List PyStr) (asg : List (Option Nat)), asg.length = gs.length →
        (consumed gs asg).map (·.2) = used asg := by
      intro gs
      induction gs with
      | nil => intro asg h; cases asg <;> simp_all [consumed, used]
      | cons g gs ih =>
        intro asg h
        cases asg with
        | nil => simp at h
        | cons o asg =>
          have := ih asg (by simpa using h)
          unfold consumed used at *
          cases o <;> simp [this]
    exact this gs _ (assign_length hs index gs)
  generalize consumed gs (assign hs index gs) = c at *
  rw [← hu] at hi hp
  clear hu
  induction hr generalizing index with
  | nil s => exact Post.ok ⟨index, h0⟩
  | @fail g i rest s h m e e1 e2 e3 =>
    have := hi i (by simp)
    simp only [List.map_cons, List.pairwise_cons] at hp
    have hskip : ∀ k, index ≤ k → k < i → ¬ T k := by
      intro k h1 h2 h3
      have := hT k h1 h3
      rw [List.map_cons, List.mem_cons] at this
      rcases this with rfl | h
      · exact Nat.lt_irrefl _ h2
      · have := hp.1 k h; omega
    have hq := hall.get e1 g m s (by rw [Nat.zero_add]; exact hg g i (by simp)) e2
      (by rw [Nat.zero_add]; exact pmono this.1 hskip h0)
    exact Post.error (hq.1 e e3)
  | @step g i rest s h m s' out e1 e2 e3 _ ih =>
    have := hi i (by simp)
    simp only [List.map_cons, List.pairwise_cons] at hp
    have hskip : ∀ k, index ≤ k → k < i → ¬ T k := by
      intro k h1 h2 h3
      have := hT k h1 h3
      rw [List.map_cons, List.mem_cons] at this
      rcases this with rfl | h
      · exact Nat.lt_irrefl _ h2
      · have := hp.1 k h; omega
    have hq := (hall.get e1 g m s (by rw [Nat.zero_add]; exact hg g i (by simp)) e2
      (by rw [Nat.zero_add]; exact pmono this.1 hskip h0)).2 s' e3
    rw [Nat.zero_add] at hq
    refine ih (index := i + 1) hq hp.2 (fun j hj => ?_) (fun g' i' h' => hg g' i' (by simp [h']))
      (fun j h1 h2 => ?_)
    · exact ⟨hp.1 j hj, (hi j (by simp at hj ⊢; exact Or.inr hj)).2⟩
    · have := hT j (by omega) h2
      rw [List.map_cons, List.mem_cons] at this
      rcases this with rfl | h
      · omega
      · exact h

/-- The section is parsed, with what is left over, if no method fails. The invariant may use which
positions are skipped. -/
theorem parseSection_total' {hs : List (Handler σ)} {P : Nat → σ → Prop}
    {G : Nat → PyStr → Prop} {text : PyStr} {s : σ} {c : List (PyStr × Nat)}
    (mono : ∀ k s, (∀ g, (g, k) ∉ c) → P k s → P (k + 1) s)
    (hall : AllIdx (HandlerOk (fun _ => False) P G) 0 hs)
    (hc : Decodes hs (splitC 32 text) c)
    (hg : ∀ g i, (g, i) ∈ c → G i g) (h0 : P 0 s) :
    ∃ s', parseSection hs text s =
      .ok (s', Spec.leftover (splitC 32 text) (assign hs 0 (splitC 32 text))) := by
  rw [decodes_iff] at hc
  subst hc
  obtain ⟨out, h1, h2⟩ := @parseSection_eq σ hs text s
  have := runs_post (T := fun k => ∃ g, (g, k) ∈ consumed (splitC 32 text) (assign hs 0 (splitC 32 text)))
    (fun k s h hp => mono k s (fun g hg => h ⟨g, hg⟩) hp) hall h1 hg
    (fun j _ ⟨g, hg⟩ => List.mem_map.2 ⟨_, hg, rfl⟩) h0
  cases out with
  | error e => exact (this.1 e rfl).elim
  | ok s' => exact ⟨s', by rw [h2]; rfl⟩

/-- The same for an invariant that depends on the position only. -/
theorem parseSection_total {hs : List (Handler σ)} {P : Nat → σ → Prop}
    {G : Nat → PyStr → Prop} (mono : ∀ k s, P k s → P (k + 1) s)
    (hall : AllIdx (HandlerOk (fun _ => False) P G) 0 hs) {text : PyStr} {s : σ}
    {c : List (PyStr × Nat)} (hc : Decodes hs (splitC 32 text) c)
    (hg : ∀ g i, (g, i) ∈ c → G i g) (h0 : P 0 s) :
    ∃ s', parseSection hs text s =
      .ok (s', Spec.leftover (splitC 32 text) (assign hs 0 (splitC 32 text))) :=
  parseSection_total' (fun k s _ h => mono k s h) hall hc hg h0

/-! ### Runs from the patterns of the handlers -/

/-- None of the patterns matches the text. -/
def Foreign (qs : List RE) (s : PyStr) : Prop := ∀ q ∈ qs, q.match s = none

theorem accepts_at {hs : List (Handler σ)} {ps : List RE} (e : hs.map Handler.regexp = ps) {i : Nat} {re : RE}
    {g : PyStr} (hp : ps[i]? = some re) (hf : ∃ m, re.match g = some m) : Accepts hs i g := by
  rw [← e, List.getElem?_map] at hp
  obtain ⟨h, h1, rfl⟩ := Option.map_eq_some_iff.1 hp
  obtain ⟨m, hm⟩ := hf
  exact ⟨h, h1, by rw [hm]; rfl⟩

theorem refuses_at {hs : List (Handler σ)} {ps : List RE} (e : hs.map Handler.regexp = ps) {b i j : Nat}
    {qs : List RE} {g : PyStr} (hq : ∀ q ∈ (ps.take i).drop b, q ∈ qs) (hf : Foreign qs g) (h1 : b ≤ j)
    (h2 : j < i) : ¬ Accepts hs j g := by
  rintro ⟨h, hj, hm⟩
  have e2 : ps[j]? = some h.regexp := by rw [← e, List.getElem?_map, hj]; rfl
  have : h.regexp ∈ (ps.take i).drop b := by
    refine List.mem_of_getElem? (i := j - b) ?_
    rw [List.getElem?_drop, List.getElem?_take, if_pos (by omega), show b + (j - b) = j by omega, e2]
  rw [hf _ (hq _ this)] at hm
  cases hm

/-- Groups that the pattern of `n` consecutive positions matches and the patterns before do not. -/
theorem runAt_of {hs : List (Handler σ)} {ps : List RE} (e : hs.map Handler.regexp = ps) {b i n : Nat}
    {qs : List RE} {re : RE} {gs : List PyStr} (hm : ∀ g ∈ gs, ∃ m, re.match g = some m)
    (hf : ∀ g ∈ gs.head?, Foreign qs g) (hlen : gs.length ≤ n)
    (hp : (ps.drop i).take n = List.replicate n re) (hq : ∀ q ∈ (ps.take i).drop b, q ∈ qs) :
    RunAt hs b i gs := by
  refine ⟨fun k g hk => ?_, fun g hg j h1 h2 => refuses_at e hq (hf g hg) h1 h2⟩
  have hlt : k < gs.length := (List.getElem?_eq_some_iff.1 hk).1
  refine accepts_at e (re := re) ?_ (hm g (List.mem_of_getElem? hk))
  have := congrArg (·[k]?) hp
  simp only [List.getElem?_take, List.getElem?_drop, List.getElem?_replicate] at this
  rwa [if_pos (by omega), if_pos (by omega)] at this

end Verif
