import Verif.Lemmas.JsonValues
import Verif.Lemmas.JsonAscii
import Verif.Lemmas.MadeReports
import Verif.Spec.Dict
import Verif.Props.Dict
import Verif.Props.Time

/-
C70: the JSON text of a report is read back, by a reader of RFC 8259 that knows nothing of the
writer, as the dictionary of the report.
-/

namespace Verif.Props
open Verif Verif.Spec

/-! ### Values -/

/-- Every value made of strings of Unicode text and of doubles is written as a text that is read
back as the same value: the same strings character for character, the same doubles bit for bit
(also `-0.0`), the same entries in the same order. -/
theorem C70_round_trip (v : PyVal) (h : PlainVal v) : readJson (jsonVal v) = some v :=
  readJson_json h

/-- No two different values are written alike. -/
theorem C70_injective (v w : PyVal) (hv : PlainVal v) (hw : PlainVal w) (h : jsonVal v = jsonVal w) : v = w := by
  have e := C70_round_trip v hv
  rw [h, C70_round_trip w hw] at e
  exact (Option.some.inj e).symm

/-- Characters that are not surrogates: what a text decoded from UTF-8 consists of. -/
theorem C70_unicode (s : PyStr) (h : ∀ c ∈ s, c < 1114112 ∧ ¬ (55296 ≤ c ∧ c < 57344)) : PlainText s := by
  refine ⟨fun c hc => (h c hc).1, ?_⟩
  intro pre a b post e hab
  subst e
  have := h a (by simp)
  unfold HighSurrogate at hab
  omega

/-- A dictionary with a nested list, a negative zero, a number with an exponent, a number without a
short decimal expansion and strings with characters that are escaped. -/
def sampleVal : PyVal :=
  .dict [(py!"a\"b", .list [.float ⟨0, true⟩, .float (F64.mk' (1 / 3) false), .none]),
    ([233, 10, 128512], .dict [([], .bool true), (py!"x", .float (F64.mk' 100000000000000000 false))])]

example : jsonVal sampleVal =
    py!"{\"a\\\"b\": [-0.0, 0.3333333333333333, null], \"\\u00e9\\n\\ud83d\\ude00\": {\"\": true, \"x\": 1e+17}}" := by
  decide +kernel

example : PlainVal sampleVal := by
  have t : ∀ s : PyStr, s.all (fun c => c < 55296 || (57344 ≤ c && c < 1114112)) = true → PlainText s := by
    intro s h
    refine C70_unicode s fun c hc => ?_
    have := List.all_eq_true.1 h c hc
    simp only [Bool.or_eq_true, Bool.and_eq_true, decide_eq_true_eq] at this
    omega
  unfold sampleVal
  refine .dict ?_ ?_ <;> simp only [List.forall_mem_cons, List.not_mem_nil, false_imp_iff, implies_true, and_true]
  · exact ⟨t _ (by decide), t _ (by decide)⟩
  · refine ⟨.list ?_, .dict ?_ ?_⟩ <;>
      simp only [List.forall_mem_cons, List.not_mem_nil, false_imp_iff, implies_true, and_true]
    · exact ⟨.float (by unfold Double; decide +kernel), .float (by unfold Double; decide +kernel), .none⟩
    · exact ⟨t _ (by decide), t _ (by decide)⟩
    · exact ⟨.bool true, .float (by unfold Double; decide +kernel)⟩

/-- Without the condition on surrogates it is false: a pair of surrogates in a string is written
like the character the pair stands for. -/
theorem C70_counterexample :
    jsonVal (.str [0xD83D, 0xDE00]) = jsonVal (.str [0x1F600]) ∧
    readJson (jsonVal (.str [0xD83D, 0xDE00])) = some (.str [0x1F600]) :=
  ⟨by decide +kernel, rfl⟩

/-! ### Printable ASCII -/

/-- Whatever the strings in the value are, the text consists of printable ASCII characters: there is
no line break in it, and it can be sent as it is. -/
theorem C70_printable (v : PyVal) : ∀ c ∈ jsonVal v, 32 ≤ c ∧ c ≤ 126 := printable_val v

/-! ### Reports -/

/-- A character of Unicode text. -/
def Scalar (c : Nat) : Prop := c < 1114112 ∧ ¬ (55296 ≤ c ∧ c < 57344)

theorem plain_of_made {v : PyVal} (h : Made Scalar v) : PlainVal v := by
  induction h with
  | none => exact .none
  | bool b => exact .bool b
  | str h => exact .str (C70_unicode _ h)
  | float h => exact .float h
  | list _ ih => exact .list ih
  | dict hk _ ih => exact .dict (fun kv hkv => C70_unicode _ (hk kv hkv)) ih

theorem ascii_scalar : Ascii Scalar := fun c hc => ⟨by omega, by omega⟩

/-- C70: the JSON text of a METAR made from Unicode text is printable ASCII, and reading it gives
the dictionary of the report, whose entries are the values of the report. -/
theorem C70_metar (db : Database) (clock : Clock) (code : PyStr) (a : Args) (r : Metar)
    (hcode : ∀ c ∈ code, Scalar c) (hdb : ∀ c, InTables db c → Scalar c)
    (h : Metar.new db clock code a = .ok r) :
    ∃ t d, r.json db = .ok t ∧ r.dict db = .ok d ∧ readJson t = some d ∧
      (∀ c ∈ t, 32 ≤ c ∧ c ≤ 126) ∧ ∀ n, leaves (n + 5) d = metarTable db r := by
  obtain ⟨d, hd, hl⟩ := C60_metar_dict db clock code a r h
  refine ⟨jsonVal d, d, ?_, hd, C70_round_trip d (plain_of_made (made_metar ascii_scalar hdb hcode h hd)),
    C70_printable d, hl⟩
  unfold Metar.json
  rw [hd]
  rfl

/-- C70: the JSON text of a TAF. -/
theorem C70_taf (db : Database) (clock : Clock) (code : PyStr) (a : Args) (r : Taf)
    (hcode : ∀ c ∈ code, Scalar c) (hdb : ∀ c, InTables db c → Scalar c)
    (h : Taf.new db clock code a = .ok r) :
    ∃ t d, r.json db = .ok t ∧ r.dict db = .ok d ∧ readJson t = some d ∧
      (∀ c ∈ t, 32 ≤ c ∧ c ≤ 126) ∧ ∀ n, leaves (n + 5) d = tafTable db r := by
  obtain ⟨d, hd, hl⟩ := C60_taf_dict db clock code a r h
  refine ⟨jsonVal d, d, ?_, hd, C70_round_trip d (plain_of_made (made_taf ascii_scalar hdb hcode h hd)),
    C70_printable d, hl⟩
  unfold Taf.json
  rw [hd]
  rfl

/-- C70: two METARs with the same JSON text have the same dictionary. -/
theorem C70_metar_injective (db : Database) (clock clock' : Clock) (code code' : PyStr) (a a' : Args) (r r' : Metar)
    (hcode : ∀ c ∈ code, Scalar c) (hcode' : ∀ c ∈ code', Scalar c) (hdb : ∀ c, InTables db c → Scalar c)
    (h : Metar.new db clock code a = .ok r) (h' : Metar.new db clock' code' a' = .ok r')
    (he : r.json db = r'.json db) : metarTable db r = metarTable db r' := by
  obtain ⟨t, d, h1, -, h3, -, h5⟩ := C70_metar db clock code a r hcode hdb h
  obtain ⟨t', d', h1', -, h3', -, h5'⟩ := C70_metar db clock' code' a' r' hcode' hdb h'
  rw [h1, h1'] at he
  cases he
  rw [h3] at h3'
  cases h3'
  rw [← h5 0, h5' 0]

/-- A report with a non-ASCII character in it; the tables of the sample are empty. -/
def sampleJson : PyStr := py!"METAR SBGR 071200Z 27015KT 9999 22/M00 Q1014 RMK " ++ [233]

/-- The texts found in what is read from the JSON text of a METAR. -/
def readTexts (code : PyStr) (paths : List (List Key)) : List (Option PyStr) :=
  match metarOk sampleClock code with
  | none => []
  | some r =>
    match r.json sampleDb with
    | .error _ => []
    | .ok t => paths.map fun p => (readJson t).bind fun d => lookText (.ok d) p

example : readTexts sampleJson [[.name py!"code"], [.name py!"remark"], [.name py!"temperatures", .name py!"dewpoint",
    .name py!"temperature"], [.name py!"wind", .name py!"speed", .name py!"speed"]] =
    [some sampleJson, some (py!"RMK " ++ [233]), some py!"-0.0", some py!"15.0"] := by
  decide +kernel

example : (∀ c ∈ sampleJson, Scalar c) ∧ ∀ c, InTables sampleDb c → Scalar c := by
  constructor
  · unfold Scalar
    decide
  · rintro c (⟨r, hr, -⟩ | ⟨x, hx, -⟩)
    · cases hr
    · cases hx

/-! ### What dictionaries are made of -/

/-- C71: in the dictionary of a METAR every number is a double, and every character that is not
ASCII is one of the report's text or of the tables of stations and countries. -/
theorem C71_metar (db : Database) (clock : Clock) (code : PyStr) (a : Args) (r : Metar) (d : PyVal)
    (h : Metar.new db clock code a = .ok r) (hd : r.dict db = .ok d) :
    Made (fun c => c < 128 ∨ c ∈ code ∨ InTables db c) d :=
  made_metar (fun _ h => .inl h) (fun _ h => .inr (.inr h)) (fun _ h => .inr (.inl h)) h hd

/-- C71: the dictionary of a TAF. -/
theorem C71_taf (db : Database) (clock : Clock) (code : PyStr) (a : Args) (r : Taf) (d : PyVal)
    (h : Taf.new db clock code a = .ok r) (hd : r.dict db = .ok d) :
    Made (fun c => c < 128 ∨ c ∈ code ∨ InTables db c) d :=
  made_taf (fun _ h => .inl h) (fun _ h => .inr (.inr h)) (fun _ h => .inr (.inl h)) h hd

end Verif.Props
