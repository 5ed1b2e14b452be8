import Verif.Spec.Archive
import Verif.Props.Moved
import Verif.Props.JsonParts
import Verif.Props.Text

/-
A report can be made again from its JSON text (C106).
-/

namespace Verif.Props
open Verif Verif.Spec

/-! ### The month in use, given as arguments -/

theorem fromMetar_given {now : Now} (now' : Now) {a : Args} {y mo : Int} (hy : a.year.getD now.year = y)
    (hm : a.month.getD now.month = mo) (m : Option Match) :
    Time.fromMetar now' m (some y) (some mo) = Time.fromMetar now m a.year a.month := by
  subst hy hm
  cases m <;> rfl

theorem metarHandlers_given (db : Database) {now : Now} (now' : Now) {a : Args} {y mo : Int}
    (hy : a.year.getD now.year = y) (hm : a.month.getD now.month = mo) (tr : Bool) :
    Metar.handlers db now' ⟨some y, some mo, tr⟩ = Metar.handlers db now a := by
  have : Metar.handleTime now' ⟨some y, some mo, tr⟩ = Metar.handleTime now a := by
    funext m s
    unfold Metar.handleTime
    simp only
    rw [fromMetar_given now' hy hm]
  unfold Metar.handlers
  rw [this]

theorem tafHandlers_given (db : Database) {now : Now} (now' : Now) {a : Args} {y mo : Int}
    (hy : a.year.getD now.year = y) (hm : a.month.getD now.month = mo) (tr : Bool) :
    Taf.handlers db now' ⟨some y, some mo, tr⟩ = Taf.handlers db now a := by
  have : Taf.handleTime now' ⟨some y, some mo, tr⟩ = Taf.handleTime now a := by
    funext m s
    unfold Taf.handleTime
    simp only
    rw [fromMetar_given now' hy hm]
  unfold Taf.handlers
  rw [this]

theorem time_month {clock : Clock} (hs : Sane clock) {a : Args} (ha : GoodArgs a) (n : Nat) {g : PyStr} {m : Match}
    (hm : MetarRegExp.TIME.match g = some m) (hn : 10 ∉ g) {t : Time}
    (h : Time.fromMetar (clock n) (some m) a.year a.month = .ok t) :
    a.year.getD (clock n).year = (t.time.year : Int) ∧ a.month.getD (clock n).month = (t.time.month : Int) ∧
      1000 ≤ t.time.year ∧ t.time.year ≤ 9999 ∧ 1 ≤ t.time.month ∧ t.time.month ≤ 12 := by
  obtain ⟨y, mo, h1, h2, h3, h4, h5, h6, -⟩ := good_month hs ha n
  obtain ⟨d, hh, i, -, -, -, -, -, -, -, v1, v2⟩ := time_value h5 h6 h1 h2 h3 h4 hm hn
  have b1 : IsTime ⟨y, mo, digitsVal d, digitsVal hh, digitsVal i⟩ := by
    refine Classical.byContradiction fun hc => ?_
    rw [v2 hc] at h; cases h
  rw [v1 b1] at h
  cases h
  exact ⟨h5, h6, h1, h2, h3, h4⟩

theorem Runs.handlers {σ : Type} {hs hs' : List (Handler σ)} {c : List (PyStr × Nat)} {s : σ} {out : Except Exc σ}
    (hr : Runs hs c s out) (h : ∀ g i, (g, i) ∈ c → hs'[i]? = hs[i]?) : Runs hs' c s out := by
  induction hr with
  | nil => exact .nil _
  | fail h1 h2 h3 => exact .fail ((h _ _ List.mem_cons_self).trans h1) h2 h3
  | step h1 h2 h3 _ ih =>
    exact .step ((h _ _ List.mem_cons_self).trans h1) h2 h3 (ih fun g i hg => h g i (List.mem_cons_of_mem _ hg))

/-- Parsing does not depend on the methods that took no group. -/
theorem parseSection_unused {σ : Type} {hs hs' : List (Handler σ)} (he : hs.map (·.regexp) = hs'.map (·.regexp))
    {text : PyStr} {s : σ} {c : List (PyStr × Nat)} (hc : Decodes hs (splitC 32 text) c)
    (h : ∀ g i, (g, i) ∈ c → hs'[i]? = hs[i]?) : parseSection hs' text s = parseSection hs text s := by
  obtain ⟨o1, h1, e1⟩ := @parseSection_eq σ hs text s
  obtain ⟨o2, h2, e2⟩ := @parseSection_eq σ hs' text s
  rw [← assign_regexps he] at h2 e2
  rw [(decodes_iff _ _ _).1 hc] at h
  rw [e1, e2, (Runs.handlers h1 h).det h2]

theorem metar_given {db : Database} {clock clock' : Clock} (hs : Sane clock) (hs' : Sane clock') {code : PyStr}
    {a : Args} (ha : GoodArgs a) {r : Metar} (h : Metar.new db clock code a = .ok r) :
    Metar.new db clock' code ⟨some r.time.time.year, some r.time.time.month, a.truncate⟩ = .ok r ∧
      1000 ≤ r.time.time.year ∧ r.time.time.year ≤ 9999 ∧ 1 ≤ r.time.time.month ∧ r.time.time.month ≤ 12 := by
  have hc : code ≠ [] := by rintro rfl; cases h
  obtain ⟨t0, time, asg, r1, e0, e1, l1, l2, -, ho, hR, -⟩ := Metar.new_reading h
  obtain ⟨y1, m1, a1, a2, a3, a4, a5, a6, a7⟩ := good_month hs ha 1
  have h0 := h
  rw [Metar.new_eq _ _ _ _ hc] at h
  rw [Metar.new_eq _ _ _ _ hc]
  rw [a7] at e1
  cases e1
  obtain ⟨_, _, -, -, -, -, -, -, d1⟩ := default_time hs 0 none none (by simp) (by simp)
  obtain ⟨_, _, -, -, -, -, -, -, d2⟩ := default_time hs' 0 none none (by simp) (by simp)
  rw [d1, ok_bind] at h
  rw [d2, ok_bind]
  simp only at h ⊢
  rw [a7, ok_bind] at h
  have hdec : Decodes (Metar.handlers db (clock 2) a) (splitC 32 (Metar.bodyText (normalizeCode code)))
      (consumed (splitC 32 (Metar.bodyText (normalizeCode code))) asg) := ⟨asg, l1, l2, rfl⟩
  rcases hR.time with ⟨g, m, hg, hm, hx⟩ | ⟨hno, hx⟩
  · have hn : 10 ∉ g :=
      not_mem_splitC (Metar.bodyText_no_newline (normalizeCode_no_newline code)) g (consumed_mem hg)
    obtain ⟨b1, b2, b3, b4, b5, b6⟩ := time_month hs ha 2 hm hn hx
    refine ⟨?_, b3, b4, b5, b6⟩
    obtain ⟨y2, m2, -, -, -, -, -, -, c7⟩ := good_month hs ha 2
    rw [fromMetar_given (clock' 1) b1 b2 none, metarHandlers_given db (clock' 2) b1 b2, c7, ok_bind]
    have e := parseSection_absorb (text := Metar.bodyText (normalizeCode code))
      (s := Metar.start (normalizeCode code) ⟨none, ⟨y1, m1, 1, 0, 0⟩⟩) hdec hg
      (fun r => { r with time := ⟨none, ⟨y2, m2, 1, 0, 0⟩⟩ })
      (by intro h m s hh; cases hh; rfl)
      (by
        intro j h hj hh m s
        have : j = 0 ∨ j = 1 := by omega
        rcases this with rfl | rfl <;> cases hh <;> rfl)
    exact (congrArg (· >>= _) e).trans h
  · have hx : r.time = ⟨none, ⟨y1, m1, 1, 0, 0⟩⟩ := hx
    rw [hx]
    refine ⟨?_, a1, a2, a3, a4⟩
    rw [fromMetar_given (clock' 1) a5 a6 none, a7, ok_bind]
    have e := parseSection_unused (hs' := Metar.handlers db (clock' 2) ⟨some y1, some m1, a.truncate⟩) (by simp only [Metar.handlers, List.map_cons, List.map_nil])
      (s := Metar.start (normalizeCode code) ⟨none, ⟨y1, m1, 1, 0, 0⟩⟩) hdec (by
        intro g i hg
        unfold Metar.handlers
        match i with
        | 0 | 1 => simp only [List.getElem?_cons_zero, List.getElem?_cons_succ]
        | 2 => exact absurd hg (hno g)
        | i + 3 => simp only [List.getElem?_cons_succ])
    exact (congrArg (· >>= _) e).trans h

theorem taf_given {db : Database} {clock clock' : Clock} (hs : Sane clock) (hs' : Sane clock') {code : PyStr}
    {a : Args} (ha : GoodArgs a) {r : Taf} (h : Taf.new db clock code a = .ok r)
    (hk : r.time.code ≠ none) (hv : r.valid.code ≠ none) :
    Taf.new db clock' code ⟨some r.time.time.year, some r.time.time.month, a.truncate⟩ = .ok r ∧
      1000 ≤ r.time.time.year ∧ r.time.time.year ≤ 9999 ∧ 1 ≤ r.time.time.month ∧ r.time.time.month ≤ 12 := by
  have hc : code ≠ [] := by rintro rfl; cases h
  obtain ⟨time, v, asg, r1, e0, e1, l1, l2, -, ho, hR, -, -, -, -, -, hbody, -⟩ := Taf.new_reading h
  have hdec : Decodes (Taf.handlers db (clock 1) a) (splitC 32 (Taf.bodyText (normalizeCode code)))
      (consumed (splitC 32 (Taf.bodyText (normalizeCode code))) asg) := ⟨asg, l1, l2, rfl⟩
  have hdec' : Decodes (Taf.handlers db (clock 1) a) (bodyGroups r.body)
      (consumed (splitC 32 (Taf.bodyText (normalizeCode code))) asg) := by
    rw [hbody]; exact hdec
  obtain ⟨-, -, -, c3, -, c5, -⟩ := C53_taf_codes db clock code a r h _ hdec'
  rcases hR.time with ⟨g, m, hg, hm, hx⟩ | ⟨hno, -⟩
  · rcases c5 with ⟨w, hw, -⟩ | ⟨-, c5⟩
    · have hn : 10 ∉ g :=
        not_mem_splitC (Taf.bodyText_no_newline (normalizeCode_no_newline code)) g (consumed_mem hg)
      obtain ⟨b1, b2, b3, b4, b5, b6⟩ := time_month hs ha 1 hm hn hx
      refine ⟨?_, b3, b4, b5, b6⟩
      have heq : Taf.new db clock code ⟨some r.time.time.year, some r.time.time.month, a.truncate⟩ = .ok r := by
        rw [Taf.new_eq _ _ _ _ hc] at h ⊢
        simp only at h ⊢
        rw [tafHandlers_given db (clock 1) b1 b2]
        exact h
      rw [← heq]
      refine (C15_taf db clock clock' hs hs' code _ _ _ _ ?_ g w hg hw).symm
      rw [tafHandlers_given db (clock 1) b1 b2]
      exact hdec
    · exact absurd c5 hv
  · rcases c3 with ⟨g, hg, -⟩ | ⟨-, c3⟩
    · exact absurd hg (hno g)
    · exact absurd c3 hk

/-! ### Reading the JSON text -/

theorem four {α : Type} {l : List α} (h : l.length = 4) : ∃ a b c d, l = [a, b, c, d] := by
  match l, h with
  | [a, b, c, d], _ => exact ⟨a, b, c, d, rfl⟩

theorem two {α : Type} {l : List α} (h : l.length = 2) : ∃ a b, l = [a, b] := by
  match l, h with
  | [a, b], _ => exact ⟨a, b, rfl⟩

theorem yearMonth_str {t : DT} (hy : t.year ≤ 9999) (hm : t.month ≤ 12) :
    yearMonth t.str = some ((t.year : Int), (t.month : Int)) := by
  obtain ⟨a, b, c, d, e⟩ := four (padNat_length 4 t.year (by omega) (by omega))
  obtain ⟨m, n, f⟩ := two (padNat_length 2 t.month (by omega) (by omega))
  have e' := padNat_val 4 t.year
  have f' := padNat_val 2 t.month
  unfold DT.str
  rw [e, f]
  rw [e] at e'
  rw [f] at f'
  simp only [List.cons_append, List.nil_append, List.append_assoc, yearMonth]
  rw [e', f']

theorem archived_metar {db : Database} {r : Metar} {t : PyStr} {d : PyVal} (hd : r.dict db = .ok d)
    (hr : readJson t = some d) (hy : r.time.time.year ≤ 9999) (hm : r.time.time.month ≤ 12) :
    archived t = some (r.rawCode, (r.time.time.year : Int), (r.time.time.month : Int)) := by
  have : entry d py!"code" = some (.str r.rawCode) ∧ entry d py!"time" = some (.dict r.time.dict) := by
    unfold Metar.dict at hd
    simp only [bind, Except.bind, pure, Except.pure] at hd
    repeat' split at hd
    all_goals first | (cases hd; done) | skip
    cases hd
    rw [dupdate_new (by simp only [List.map_cons, List.map_nil]; decide +kernel)]
    exact ⟨rfl, rfl⟩
  have h2 : entry (.dict r.time.dict) py!"datetime" = some (.str r.time.time.str) := rfl
  unfold archived
  rw [hr]
  simp only [this, Option.bind_some, h2]
  rw [yearMonth_str hy hm]
  rfl

theorem archived_taf {db : Database} {r : Taf} {t : PyStr} {d : PyVal} (hd : r.dict db = .ok d)
    (hr : readJson t = some d) (hy : r.time.time.year ≤ 9999) (hm : r.time.time.month ≤ 12) :
    archived t = some (r.rawCode, (r.time.time.year : Int), (r.time.time.month : Int)) := by
  have : entry d py!"code" = some (.str r.rawCode) ∧ entry d py!"time" = some (.dict r.time.dict) := by
    unfold Taf.dict at hd
    simp only [bind, Except.bind, pure, Except.pure] at hd
    repeat' split at hd
    all_goals first | (cases hd; done) | skip
    cases hd
    rw [dupdate_new (by simp only [List.map_cons, List.map_nil]; decide +kernel)]
    exact ⟨rfl, rfl⟩
  have h2 : entry (.dict r.time.dict) py!"datetime" = some (.str r.time.time.str) := rfl
  unfold archived
  rw [hr]
  simp only [this, Option.bind_some, h2]
  rw [yearMonth_str hy hm]
  rfl

/-! ### C106 -/

theorem metar_lenient {db : Database} {clock : Clock} {code : PyStr} {y mo : Option Int} {tr : Bool} {r : Metar}
    (h : Metar.new db clock code ⟨y, mo, tr⟩ = .ok r) : Metar.new db clock code ⟨y, mo, false⟩ = .ok r := by
  cases tr with
  | false => exact h
  | true =>
    obtain ⟨h1, h2⟩ := C07_truncate_metar db clock code y mo
    cases he : Metar.new db clock code ⟨y, mo, false⟩ with
    | error e => rw [(h1 e he).1] at h; cases h
    | ok r' =>
      obtain ⟨g1, g2⟩ := h2 r' he
      by_cases hu : r'.unparsed = []
      · rw [g1 hu] at h
        exact h
      · rw [g2 hu] at h; cases h

theorem taf_lenient {db : Database} {clock : Clock} {code : PyStr} {y mo : Option Int} {tr : Bool} {r : Taf}
    (h : Taf.new db clock code ⟨y, mo, tr⟩ = .ok r) : Taf.new db clock code ⟨y, mo, false⟩ = .ok r := by
  cases tr with
  | false => exact h
  | true =>
    obtain ⟨h1, h2⟩ := C07_truncate_taf db clock code y mo
    cases he : Taf.new db clock code ⟨y, mo, false⟩ with
    | error e => rw [(h1 e he).1] at h; cases h
    | ok r' =>
      obtain ⟨g1, g2⟩ := h2 r' he
      by_cases hu : r'.unparsed = []
      · rw [g1 hu] at h
        exact h
      · rw [g2 hu] at h; cases h

/-- C106. The JSON text of a METAR holds what is needed to make the report again: the code and, in the time,
the year and the month. Reading that code with that year and month, in any later month, gives the very same
report. -/
theorem C106_metar (db : Database) (clock : Clock) (hs : Sane clock) (code : PyStr) (a : Args) (ha : GoodArgs a)
    (r : Metar) (hcode : ∀ c ∈ code, Scalar c) (hdb : ∀ c, InTables db c → Scalar c)
    (h : Metar.new db clock code a = .ok r)
    (hset : Settled r.rawCode) :
    ∃ t c y mo, r.json db = .ok t ∧ archived t = some (c, y, mo) ∧
      ∀ clock', Sane clock' → Metar.new db clock' c ⟨some y, some mo, false⟩ = .ok r := by
  obtain ⟨t, d, h1, h2, h3, -⟩ := C70_metar db clock code a r hcode hdb h
  obtain ⟨-, k1, k2, k3, k4⟩ := metar_given hs hs ha h
  refine ⟨t, _, _, _, h1, archived_metar h2 h3 k2 k4, fun clock' hs' => ?_⟩
  obtain ⟨g, -⟩ := metar_given hs hs' ha h
  have hc : code ≠ [] := by rintro rfl; cases h
  have hraw := metar_rawCode h
  refine (metar_congr db clock' _ _ _ hset.filled hc ?_).trans (metar_lenient g)
  rw [← hraw]
  exact normalizeCode_tidy hset.tidy hset.trimmed ((C02_no_equals db clock code a).1 r h)

/-- C106, TAF. The same for a TAF with a time group and a valid group. -/
theorem C106_taf (db : Database) (clock : Clock) (hs : Sane clock) (code : PyStr) (a : Args) (ha : GoodArgs a)
    (r : Taf) (hcode : ∀ c ∈ code, Scalar c) (hdb : ∀ c, InTables db c → Scalar c)
    (h : Taf.new db clock code a = .ok r) (hk : r.time.code ≠ none) (hv : r.valid.code ≠ none)
    (hset : Settled r.rawCode) :
    ∃ t c y mo, r.json db = .ok t ∧ archived t = some (c, y, mo) ∧
      ∀ clock', Sane clock' → Taf.new db clock' c ⟨some y, some mo, false⟩ = .ok r := by
  obtain ⟨t, d, h1, h2, h3, -⟩ := C70_taf db clock code a r hcode hdb h
  obtain ⟨-, k1, k2, k3, k4⟩ := taf_given hs hs ha h hk hv
  refine ⟨t, _, _, _, h1, archived_taf h2 h3 k2 k4, fun clock' hs' => ?_⟩
  obtain ⟨g, -⟩ := taf_given hs hs' ha h hk hv
  have hc : code ≠ [] := by rintro rfl; cases h
  have hraw := taf_rawCode h
  refine (taf_congr db clock' _ _ _ hset.filled hc ?_).trans (taf_lenient g)
  rw [← hraw]
  exact normalizeCode_tidy hset.tidy hset.trimmed ((C02_no_equals db clock code a).2 r h)

/-- C106. Two METARs with one JSON text are one report: no attribute of a report, shown in the text or not,
differs. -/
theorem C106_metar_injective (db : Database) (clock clock' : Clock) (hs : Sane clock) (hs' : Sane clock')
    (code code' : PyStr) (a a' : Args) (ha : GoodArgs a) (ha' : GoodArgs a') (r r' : Metar)
    (hcode : ∀ c ∈ code, Scalar c) (hcode' : ∀ c ∈ code', Scalar c) (hdb : ∀ c, InTables db c → Scalar c)
    (h : Metar.new db clock code a = .ok r) (h' : Metar.new db clock' code' a' = .ok r')
    (hset : Settled r.rawCode) (hset' : Settled r'.rawCode) (he : r.json db = r'.json db) : r = r' := by
  obtain ⟨t, c, y, mo, e1, e2, e3⟩ := C106_metar db clock hs code a ha r hcode hdb h hset
  obtain ⟨t', c', y', mo', f1, f2, f3⟩ := C106_metar db clock' hs' code' a' ha' r' hcode' hdb h' hset'
  rw [e1, f1] at he
  cases he
  rw [e2] at f2
  cases f2
  have := (e3 clock hs).symm.trans (f3 clock hs)
  cases this
  rfl

/-- C106, TAF. The same for TAFs with a time group and a valid group. -/
theorem C106_taf_injective (db : Database) (clock clock' : Clock) (hs : Sane clock) (hs' : Sane clock')
    (code code' : PyStr) (a a' : Args) (ha : GoodArgs a) (ha' : GoodArgs a') (r r' : Taf)
    (hcode : ∀ c ∈ code, Scalar c) (hcode' : ∀ c ∈ code', Scalar c) (hdb : ∀ c, InTables db c → Scalar c)
    (h : Taf.new db clock code a = .ok r) (h' : Taf.new db clock' code' a' = .ok r')
    (hk : r.time.code ≠ none) (hk' : r'.time.code ≠ none) (hv : r.valid.code ≠ none) (hv' : r'.valid.code ≠ none)
    (hset : Settled r.rawCode) (hset' : Settled r'.rawCode) (he : r.json db = r'.json db) : r = r' := by
  obtain ⟨t, c, y, mo, e1, e2, e3⟩ := C106_taf db clock hs code a ha r hcode hdb h hk hv hset
  obtain ⟨t', c', y', mo', f1, f2, f3⟩ := C106_taf db clock' hs' code' a' ha' r' hcode' hdb h' hk' hv' hset'
  rw [e1, f1] at he
  cases he
  rw [e2] at f2
  cases f2
  have := (e3 clock hs).symm.trans (f3 clock hs)
  cases this
  rfl

/-! ### Instances -/

/-- What the JSON text of a METAR of the sample keeps. -/
def metarKeeps (code : PyStr) (a : Args) : Option (PyStr × Int × Int) :=
  match metarOk sampleClock code a with
  | none => none
  | some r =>
    match r.json sampleDb with
    | .error _ => none
    | .ok t => archived t

def tafKeeps (code : PyStr) (a : Args) : Option (PyStr × Int × Int) :=
  match tafOk sampleClock code a with
  | none => none
  | some r =>
    match r.json sampleDb with
    | .error _ => none
    | .ok t => archived t

/-- The code and the lines of a METAR of the sample. -/
def metarFace (clock : Clock) (code : PyStr) (a : Args) : Option (PyStr × List PyStr) :=
  (metarOk clock code a).map fun r => (r.rawCode, splitC 10 r.core.string)

def tafFace (clock : Clock) (code : PyStr) (a : Args) : Option (PyStr × List PyStr) :=
  (tafOk clock code a).map fun r => (r.rawCode, splitC 10 r.core.string)

example : metarKeeps py!" METAR  SCEL 101130Z 18004KT\n22/14 TEMPO 3000=" ⟨some 2021, some 12, true⟩ =
    some (py!"METAR SCEL 101130Z 18004KT 22/14 TEMPO 3000", 2021, 12) := by decide +kernel

example : metarFace clock2025 py!"METAR SCEL 101130Z 18004KT 22/14 TEMPO 3000" ⟨some 2021, some 12, false⟩ =
    metarFace sampleClock py!" METAR  SCEL 101130Z 18004KT\n22/14 TEMPO 3000=" ⟨some 2021, some 12, true⟩ := by
  decide +kernel

example : tafKeeps py!"TAF SCEL 311130Z 3112/0112 18004KT BECMG 3114/3116 3000=" ⟨some 2021, some 12, false⟩ =
    some (py!"TAF SCEL 311130Z 3112/0112 18004KT BECMG 3114/3116 3000", 2021, 12) := by decide +kernel

example : tafFace clock2025 py!"TAF SCEL 311130Z 3112/0112 18004KT BECMG 3114/3116 3000" ⟨some 2021, some 12, false⟩ =
    tafFace sampleClock py!"TAF SCEL 311130Z 3112/0112 18004KT BECMG 3114/3116 3000=" ⟨some 2021, some 12, false⟩ := by
  decide +kernel

/-- With the end-of-message sign inside the text the code is not settled, and the report made again has another
code. -/
theorem C106_equals_false :
    metarKeeps py!"METAR SCEL 101130Z = 18004KT" {} = some (py!"METAR SCEL 101130Z  18004KT", 2024, 6) ∧
    metarFace sampleClock py!"METAR SCEL 101130Z = 18004KT" {} ≠
      metarFace sampleClock py!"METAR SCEL 101130Z  18004KT" ⟨some 2024, some 6, false⟩ := by
  decide +kernel

/-- Without a valid group a TAF made again in another month differs: the year and month kept are those of its time,
its default period was taken from the clock. -/
theorem C106_taf_false :
    tafKeeps py!"TAF KJFK 101130Z 18004KT" ⟨some 2020, some 1, false⟩ =
      some (py!"TAF KJFK 101130Z 18004KT", 2020, 1) ∧
    (tafOk sampleClock py!"TAF KJFK 101130Z 18004KT" ⟨some 2020, some 1, false⟩).map (·.valid.from_.time) ≠
      (tafOk clock2025 py!"TAF KJFK 101130Z 18004KT" ⟨some 2020, some 1, false⟩).map (·.valid.from_.time) := by
  decide +kernel

/-- A code is settled if the clean-up leaves it alone. -/
example : Settled py!"METAR SCEL 101130Z 18004KT 22/14 TEMPO 3000" := by
  have h := normalizeCode_normal_form py!"METAR SCEL 101130Z 18004KT 22/14 TEMPO 3000" (by decide)
  have e : normalizeCode py!"METAR SCEL 101130Z 18004KT 22/14 TEMPO 3000" =
      py!"METAR SCEL 101130Z 18004KT 22/14 TEMPO 3000" := by decide +kernel
  rw [e] at h
  exact ⟨by decide, h.1, h.2.1⟩

end Verif.Props
