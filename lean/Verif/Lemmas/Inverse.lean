import Verif.Lemmas.Forms

/-
The converse of `RE.chk`: every newline-free text a bounded pattern matches is made of pieces of one
of the listed forms, and the named groups are those pieces.
-/

namespace Verif

/-- A form: the shapes of the pieces, and which piece each named group is. -/
abbrev Form := List (List CC) × List (Cap × Option Nat)

def formOk (x : List Step × St) (f : Form) : Bool :=
  subShape (pathCls x.1) f.1.flatten && f.2.all fun co =>
    match co.2, x.2.2.lookup co.1 with
    | none, none => true
    | some i, some (a, b) =>
      Nat.blt i f.1.length && Nat.beq a (offs f.1 i) && Nat.beq b (offs f.1 (i + 1))
    | _, _ => false

/-- Looks for a form of the path; gives the forms left, those after the found one first. -/
def takeForm (x : List Step × St) : List Form → List Form → Option (List Form)
  | [], _ => none
  | f :: fs, acc =>
    if formOk x f then
      match acc with
      | [] => some fs
      | _ :: _ => some (fs ++ acc.reverse)
    else takeForm x fs (f :: acc)

theorem takeForm_sound {x : List Step × St} {fs acc l : List Form}
    (h : takeForm x fs acc = some l) : (∃ f ∈ fs, formOk x f = true) ∧
      ∀ f ∈ l, f ∈ fs ∨ f ∈ acc := by
  induction fs generalizing acc with
  | nil => cases h
  | cons f fs ih =>
    unfold takeForm at h
    split at h
    · next hf =>
      refine ⟨⟨f, by simp, hf⟩, ?_⟩
      split at h
      · cases h
        intro g hg
        exact .inl (List.mem_cons_of_mem _ hg)
      · cases h
        intro g hg
        rcases List.mem_append.1 hg with hg | hg
        · exact .inl (List.mem_cons_of_mem _ hg)
        · exact .inr (List.mem_reverse.1 hg)
    · obtain ⟨⟨g, hg, e⟩, h2⟩ := ih h
      refine ⟨⟨g, List.mem_cons_of_mem _ hg, e⟩, fun k hk => ?_⟩
      rcases h2 k hk with hk | hk
      · exact .inl (List.mem_cons_of_mem _ hk)
      · rcases List.mem_cons.1 hk with rfl | hk
        · exact .inl (by simp)
        · exact .inr hk

/-- The paths have the forms, each a different one. -/
def alignB : List (List Step × St) → List Form → Bool
  | [], _ => true
  | x :: xs, fs =>
    match takeForm x fs [] with
    | some fs => alignB xs fs
    | none => false

/-- Every path has one of the forms: each a different one, or somewhere. -/
def coveredB (xs : List (List Step × St)) (table : List Form) : Bool :=
  alignB xs table || xs.all fun x => table.any (formOk x)

theorem alignB_sound {xs : List (List Step × St)} {table l : List Form} (hl : ∀ f ∈ l, f ∈ table)
    (h : alignB xs l = true) : ∀ x ∈ xs, ∃ f ∈ table, formOk x f = true := by
  induction xs generalizing l with
  | nil => simp
  | cons x xs ih =>
    unfold alignB at h
    split at h
    · next fs hf =>
      obtain ⟨⟨f, h1, h2⟩, h3⟩ := takeForm_sound hf
      intro y hy
      rcases List.mem_cons.1 hy with rfl | hy
      · exact ⟨f, hl f h1, h2⟩
      · refine ih (fun g hg => ?_) h y hy
        rcases h3 g hg with h | h
        · exact hl g h
        · cases h
    · cases h

theorem coveredB_sound {xs : List (List Step × St)} {table : List Form}
    (h : coveredB xs table = true) : ∀ x ∈ xs, ∃ f ∈ table, formOk x f = true := by
  unfold coveredB at h
  rw [Bool.or_eq_true] at h
  rcases h with h | h
  · exact alignB_sound (fun f hf => hf) h
  · intro x hx
    exact List.any_eq_true.1 (List.all_eq_true.1 h x hx)

/-- Every path of the pattern has one of the forms. -/
def RE.inForms (r : RE) (table : List Form) : Bool :=
  ((r.paths (0, [])).isSome && r.paths0.all fun x => endsWithEos x.1 && capsInside x) &&
    coveredB r.paths0 table

theorem HasShape.shapes {kss : List (List CC)} {s : PyStr} (h : HasShape kss.flatten s) :
    ∃ ts, Shapes kss ts ∧ s = ts.flatten := by
  induction kss generalizing s with
  | nil => exact ⟨[], trivial, h⟩
  | cons ks kss ih =>
    rw [List.flatten_cons] at h
    obtain ⟨a, b, rfl, ha, hb⟩ := h.append_inv
    obtain ⟨ts, h1, rfl⟩ := ih hb
    exact ⟨a :: ts, ⟨ha, h1⟩, rfl⟩

theorem RE.inForms_sound {r : RE} {table : List Form} (ht : r.inForms table = true) {s : PyStr}
    {m : Match} (hm : r.match s = some m) (hn : 10 ∉ s) :
    ∃ f ∈ table, ∃ ts, Shapes f.1 ts ∧ s = ts.flatten ∧
      ∀ co ∈ f.2, m.group co.1 = co.2.map fun i => (ts[i]?).getD [] := by
  unfold RE.inForms at ht
  rw [Bool.and_eq_true] at ht
  obtain ⟨x, hx, h1, h2, h3, h4, h5⟩ := RE.match_whole ht.1 hm hn
  obtain ⟨f, hf, hok⟩ := coveredB_sound ht.2 x hx
  unfold formOk at hok
  rw [Bool.and_eq_true] at hok
  obtain ⟨ts, hs, he⟩ := (subShape_sound hok.1 h3).shapes
  refine ⟨f, hf, ts, hs, he, ?_⟩
  rintro ⟨c, o⟩ hco
  have := List.all_eq_true.1 hok.2 _ hco
  simp only at this
  unfold Match.group
  rw [h2, h1, he]
  simp only
  split at this
  · next h1 h2 => rw [h2]; rfl
  · next i a b h1 h2 =>
    simp only [Bool.and_eq_true, Nat.blt_eq, Nat.beq_eq] at this
    obtain ⟨⟨hi, rfl⟩, rfl⟩ := this
    rw [h2]
    simp only [Option.map_some]
    rw [piece_eq hs hi]
  · cases this

/-- Every path of the pattern has one of the forms, the pattern need not reach the end. -/
def RE.inFormsP (r : RE) (table : List Form) : Bool :=
  (r.paths (0, [])).isSome && coveredB r.paths0 table

theorem formOk_groups {x : List Step × St} {f : Form} (h : formOk x f = true) {ts : List PyStr}
    (hs : Shapes f.1 ts) (rest : PyStr) {m : Match} (hc : m.caps = x.2.2)
    (hm : m.string = ts.flatten ++ rest) :
    ∀ co ∈ f.2, m.group co.1 = co.2.map fun i => (ts[i]?).getD [] := by
  unfold formOk at h
  rw [Bool.and_eq_true] at h
  rintro ⟨c, o⟩ hco
  have := List.all_eq_true.1 h.2 _ hco
  simp only at this
  unfold Match.group
  rw [hc, hm]
  simp only
  split at this
  · next h1 h2 => rw [h2]; rfl
  · next i a b h1 h2 =>
    simp only [Bool.and_eq_true, Nat.blt_eq, Nat.beq_eq] at this
    obtain ⟨⟨hi, rfl⟩, rfl⟩ := this
    rw [h2]
    simp only [Option.map_some]
    have hle : ∀ i, offs f.1 i ≤ ts.flatten.length := by
      intro i
      rw [hs.flatten.length]
      unfold offs
      have : f.1.flatten = (f.1.take i).flatten ++ (f.1.drop i).flatten := by
        rw [← List.flatten_append, List.take_append_drop]
      rw [this, List.length_append]
      omega
    rw [← piece_eq hs hi, List.drop_append_of_le_length (hle _), List.take_append_of_le_length]
    rw [List.length_drop]
    exact Nat.sub_le_sub_right (hle _) _
  · cases this

theorem RE.inFormsP_sound {r : RE} {table : List Form} (ht : r.inFormsP table = true) {s : PyStr}
    {m : Match} (hm : r.match s = some m) :
    ∃ f ∈ table, ∃ ts rest, Shapes f.1 ts ∧ s = ts.flatten ++ rest ∧
      ∀ co ∈ f.2, m.group co.1 = co.2.map fun i => (ts[i]?).getD [] := by
  unfold RE.inFormsP at ht
  rw [Bool.and_eq_true] at ht
  obtain ⟨x, hx, h1, -, h3, h4⟩ := RE.match_path ht.1 hm
  obtain ⟨f, hf, hok⟩ := coveredB_sound ht.2 x hx
  have hsh := h4.shape
  simp only [List.drop_zero] at hsh
  have hok' := hok
  unfold formOk at hok'
  rw [Bool.and_eq_true] at hok'
  obtain ⟨ts, hs, he⟩ := (subShape_sound hok'.1 hsh).shapes
  have e : s = ts.flatten ++ s.drop (pathLen x.1) := by
    rw [← he, List.take_append_drop]
  exact ⟨f, hf, ts, _, hs, e, formOk_groups hok hs _ h3 (h1.trans e)⟩

end Verif
