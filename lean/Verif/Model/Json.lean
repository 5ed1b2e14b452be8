import Verif.Model.Taf

/-
`to_json()` of reports (base/report.py 99-101): `json.dumps(self.as_dict())`.

`json.dumps` with its default arguments belongs to the standard library (Lib/json/encoder.py); here
is what it does to the values that occur in the dictionaries: no integers, and strings as keys.
-/

namespace Verif

/-! ### Strings: `py_encode_basestring_ascii` -/

def hexDigit (n : Nat) : Nat := if n < 10 then 48 + n else 87 + n

/-- `"{:04x}".format(n)` for `n < 65536`. -/
def hex4 (n : Nat) : PyStr :=
  [hexDigit (n / 4096 % 16), hexDigit (n / 256 % 16), hexDigit (n / 16 % 16), hexDigit (n % 16)]

def jsonChar (c : Nat) : PyStr :=
  if c = 34 then [92, 34]
  else if c = 92 then [92, 92]
  else if 32 ≤ c ∧ c ≤ 126 then [c]
  else if c = 10 then [92, 110]
  else if c = 13 then [92, 114]
  else if c = 9 then [92, 116]
  else if c = 12 then [92, 102]
  else if c = 8 then [92, 98]
  else if c < 65536 then 92 :: 117 :: hex4 c
  else
    let v := c - 65536
    (92 :: 117 :: hex4 (55296 + v / 1024 % 1024)) ++ (92 :: 117 :: hex4 (56320 + v % 1024))

def jsonStr (s : PyStr) : PyStr := 34 :: (s.flatMap jsonChar ++ [34])

/-! ### Values -/

mutual
def jsonVal : PyVal → PyStr
  | .none => py!"null"
  | .bool true => py!"true"
  | .bool false => py!"false"
  | .str s => jsonStr s
  | .float x => floatRepr x
  | .list l => 91 :: jsonElems l
  | .dict d => 123 :: jsonMembers d

/-- The rest of a list. -/
def jsonElems : List PyVal → PyStr
  | [] => [93]
  | v :: l => jsonVal v ++ jsonMoreElems l

def jsonMoreElems : List PyVal → PyStr
  | [] => [93]
  | v :: l => py!", " ++ jsonVal v ++ jsonMoreElems l

/-- The rest of a dictionary. -/
def jsonMembers : List (PyStr × PyVal) → PyStr
  | [] => [125]
  | (k, v) :: d => jsonStr k ++ py!": " ++ jsonVal v ++ jsonMoreMembers d

def jsonMoreMembers : List (PyStr × PyVal) → PyStr
  | [] => [125]
  | (k, v) :: d => py!", " ++ jsonStr k ++ py!": " ++ jsonVal v ++ jsonMoreMembers d
end

/-- `Metar.to_json` (report.py 99-101). -/
def Metar.json (db : Database) (r : Metar) : Except Exc PyStr := do
  let d ← r.dict db
  return jsonVal d

/-- `Taf.to_json` (report.py 99-101). -/
def Taf.json (db : Database) (r : Taf) : Except Exc PyStr := do
  let d ← r.dict db
  return jsonVal d

end Verif
