import Verif.Model.Base
import Verif.Model.Group

/-
JSON texts (RFC 8259), read. The reader knows nothing of how the texts were written.
-/

namespace Verif.Spec

/-! ### Strings -/

def hexValue (c : Nat) : Option Nat :=
  if 48 ≤ c ∧ c ≤ 57 then some (c - 48)
  else if 97 ≤ c ∧ c ≤ 102 then some (c - 87)
  else if 65 ≤ c ∧ c ≤ 70 then some (c - 55)
  else none

/-- The character after a backslash. -/
def escapes : List (Nat × Nat) :=
  [(34, 34), (92, 92), (47, 47), (98, 8), (102, 12), (110, 10), (114, 13), (116, 9)]

/-- The inside of a string up to the closing quotation mark, and what comes after it. Escaped
characters beyond the basic plane are left as two surrogates. -/
def readUnits : PyStr → Option (List Nat × PyStr)
  | [] => none
  | c :: s =>
    if c = 34 then some ([], s)
    else if c < 32 then none
    else if c = 92 then
      match s with
      | [] => none
      | e :: s =>
        if e = 117 then
          match s with
          | a :: b :: c :: d :: s =>
            match hexValue a, hexValue b, hexValue c, hexValue d with
            | some a, some b, some c, some d =>
              (readUnits s).map fun r => ((((a * 16 + b) * 16 + c) * 16 + d) :: r.1, r.2)
            | _, _, _, _ => none
          | _ => none
        else
          match escapes.lookup e with
          | some x => (readUnits s).map fun r => (x :: r.1, r.2)
          | none => none
    else (readUnits s).map fun r => (c :: r.1, r.2)

def HighSurrogate (c : Nat) : Prop := 55296 ≤ c ∧ c < 56320
def LowSurrogate (c : Nat) : Prop := 56320 ≤ c ∧ c < 57344

instance (c : Nat) : Decidable (HighSurrogate c) := inferInstanceAs (Decidable (_ ∧ _))
instance (c : Nat) : Decidable (LowSurrogate c) := inferInstanceAs (Decidable (_ ∧ _))

/-- Surrogates that follow each other are one character. -/
def joinSurrogates : List Nat → PyStr
  | h :: l :: s =>
    if HighSurrogate h ∧ LowSurrogate l then (65536 + (h - 55296) * 1024 + (l - 56320)) :: joinSurrogates s
    else h :: joinSurrogates (l :: s)
  | s => s

def readString (s : PyStr) : Option (PyStr × PyStr) := (readUnits s).map fun r => (joinSurrogates r.1, r.2)

/-! ### Numbers -/

/-- The digits at the beginning. -/
def takeDigits : PyStr → PyStr × PyStr
  | [] => ([], [])
  | c :: s => if 48 ≤ c ∧ c ≤ 57 then (c :: (takeDigits s).1, (takeDigits s).2) else ([], c :: s)

def decimalValue (ds : PyStr) : Nat := ds.foldl (fun n c => 10 * n + (c - 48)) 0

/-- A sign and digits. -/
def readExponent : PyStr → Option (Int × PyStr)
  | 45 :: s =>
    let t := takeDigits s
    if t.1 = [] then none else some (-(decimalValue t.1 : Int), t.2)
  | 43 :: s =>
    let t := takeDigits s
    if t.1 = [] then none else some ((decimalValue t.1 : Int), t.2)
  | s =>
    let t := takeDigits s
    if t.1 = [] then none else some ((decimalValue t.1 : Int), t.2)

/-- The digits after the decimal point. -/
def readFraction : PyStr → Option (PyStr × PyStr)
  | 46 :: s =>
    let t := takeDigits s
    if t.1 = [] then none else some t
  | s => some ([], s)

/-- The exponent, zero if there is none. -/
def readPower : PyStr → Option (Int × PyStr)
  | 101 :: s => readExponent s
  | 69 :: s => readExponent s
  | s => some (0, s)

/-- An unsigned number, exactly. -/
def readDecimal (s : PyStr) : Option (Rat × PyStr) :=
  let w := takeDigits s
  if w.1 = [] ∨ (w.1.length ≠ 1 ∧ w.1.head? = some 48) then none
  else (readFraction w.2).bind fun f => (readPower f.2).map fun e =>
    ((decimalValue (w.1 ++ f.1) : Rat) * 10 ^ (e.1 - f.1.length : Int), e.2)

/-- A number is the double nearest to it. -/
def readNumber : PyStr → Option (F64 × PyStr)
  | 45 :: s => (readDecimal s).map fun r => (F64.mk' (-r.1) true, r.2)
  | s => (readDecimal s).map fun r => (F64.mk' r.1 false, r.2)

/-! ### Values -/

def jsonWhite (c : Nat) : Bool := c == 32 || c == 9 || c == 10 || c == 13

def skip (s : PyStr) : PyStr := s.dropWhile jsonWhite

/-- The text after a given one. -/
def expect (w s : PyStr) : Option PyStr := if w <+: s then some (s.drop w.length) else none

mutual
/-- A value at the beginning of a text, and what comes after it. The number only bounds the recursion. -/
def readValue : Nat → PyStr → Option (PyVal × PyStr)
  | 0, _ => none
  | n + 1, s =>
    match skip s with
    | [] => none
    | c :: s =>
      if c = 34 then (readString s).map fun r => (.str r.1, r.2)
      else if c = 91 then
        match skip s with
        | 93 :: s => some (.list [], s)
        | s => (readElems n s).map fun r => (.list r.1, r.2)
      else if c = 123 then
        match skip s with
        | 125 :: s => some (.dict [], s)
        | s => (readMembers n s).map fun r => (.dict r.1, r.2)
      else if c = 110 then (expect py!"ull" s).map fun r => (.none, r)
      else if c = 116 then (expect py!"rue" s).map fun r => (.bool true, r)
      else if c = 102 then (expect py!"alse" s).map fun r => (.bool false, r)
      else (readNumber (c :: s)).map fun r => (.float r.1, r.2)

/-- The members of a list, at least one, and the closing bracket. -/
def readElems : Nat → PyStr → Option (List PyVal × PyStr)
  | 0, _ => none
  | n + 1, s =>
    match readValue n s with
    | none => none
    | some (v, s) =>
      match skip s with
      | 93 :: s => some ([v], s)
      | 44 :: s => (readElems n s).map fun r => (v :: r.1, r.2)
      | _ => none

/-- The members of an object, at least one, and the closing brace. -/
def readMembers : Nat → PyStr → Option (List (PyStr × PyVal) × PyStr)
  | 0, _ => none
  | n + 1, s =>
    match skip s with
    | 34 :: s =>
      match readString s with
      | none => none
      | some (k, s) =>
        match skip s with
        | 58 :: s =>
          match readValue n s with
          | none => none
          | some (v, s) =>
            match skip s with
            | 125 :: s => some ([(k, v)], s)
            | 44 :: s => (readMembers n s).map fun r => ((k, v) :: r.1, r.2)
            | _ => none
        | _ => none
    | _ => none
end

/-- The value of a whole text. -/
def readJson (s : PyStr) : Option PyVal :=
  match readValue (s.length + 1) s with
  | some (v, r) => if skip r = [] then some v else none
  | none => none

/-! ### Python's values -/

/-- A string of Python; two surrogates that form a pair do not follow each other. -/
structure PlainText (s : PyStr) : Prop where
  unicode : ∀ c ∈ s, c < 1114112
  single : ∀ a h l b, s = a ++ h :: l :: b → ¬ (HighSurrogate h ∧ LowSurrogate l)

/-- A double. -/
def Double (x : F64) : Prop := rnd x.val = x.val ∧ (x.nz = true → x.val = 0)

/-- The values that strings and doubles of Python are put into. -/
inductive PlainVal : PyVal → Prop
  | none : PlainVal .none
  | bool (b : Bool) : PlainVal (.bool b)
  | str {s : PyStr} (h : PlainText s) : PlainVal (.str s)
  | float {x : F64} (h : Double x) : PlainVal (.float x)
  | list {l : List PyVal} (h : ∀ v ∈ l, PlainVal v) : PlainVal (.list l)
  | dict {d : List (PyStr × PyVal)} (hk : ∀ kv ∈ d, PlainText kv.1) (h : ∀ kv ∈ d, PlainVal kv.2) :
    PlainVal (.dict d)

/-- Every character of every string in the value satisfies `P`, and every number is a double. -/
inductive Made (P : Nat → Prop) : PyVal → Prop
  | none : Made P .none
  | bool (b : Bool) : Made P (.bool b)
  | str {s : PyStr} (h : ∀ c ∈ s, P c) : Made P (.str s)
  | float {x : F64} (h : Double x) : Made P (.float x)
  | list {l : List PyVal} (h : ∀ v ∈ l, Made P v) : Made P (.list l)
  | dict {d : List (PyStr × PyVal)} (hk : ∀ kv ∈ d, ∀ c ∈ kv.1, P c) (h : ∀ kv ∈ d, Made P kv.2) :
    Made P (.dict d)

/-- The characters of the tables of stations and countries. -/
def InTables (db : Database) (c : Nat) : Prop :=
  (∃ r ∈ db.stations, c ∈ r.name ∨ c ∈ r.icao ∨ c ∈ r.iata ∨ c ∈ r.synop ∨ c ∈ r.latitude ∨
    c ∈ r.longitude ∨ c ∈ r.elevation ∨ c ∈ r.country) ∨ ∃ x ∈ db.countries, c ∈ x.2

end Verif.Spec
