import Verif.Py.Str

/-
The part of Python's `re` used by the library.

A pattern is written as the literal Python pattern text, `re! r"..."`, and read into the syntax
tree `RE` when the file is elaborated. The semantics is the usual ordered backtracking one: the
list of all ways to match at a position, in the order in which Python's engine tries them; a
match is the first of them.
-/

namespace Verif

/-- Names of the named groups of all patterns of the library (plus those of `strptime`). -/
inductive Cap where
  | type | station | day | hour | min | minute | mod | dir | speed | gust | units | units2
  | from_ | to | vis | integer | fraction | cavok | name | rvrlow | low | rvrhigh | high | trend
  | int | desc | prec | obsc | other | cover | height | tsign | temp | dsign | dewpt | press
  | all | sign | state | deposit | cont | depth | fric | snoclo | clrd | prefix | rmk
  | fmday | fmhour | tlday | tlhour | percent | frac
  | sY | sm | sd | sH | sM
deriving DecidableEq, Repr

/-- A one-character pattern: a set of ranges, `\d` or `\s`. -/
inductive CC where
  | set (rs : List (Nat × Nat))
  | digit
  | space
deriving DecidableEq, Repr

def CC.ranges : CC → List (Nat × Nat)
  | .set rs => rs
  | .digit => digitRanges
  | .space => spaceRanges

def CC.mem (cc : CC) (c : Nat) : Bool := inRanges cc.ranges c

/-- Syntax of patterns. Repetition is only ever applied to one-character patterns. -/
inductive RE where
  | eps
  | chr (cc : CC)
  | seq (a b : RE)
  | alt (a b : RE)
  | opt (a : RE)                                  -- `a?`, greedy
  | rep (cc : CC) (lo : Nat) (hi : Option Nat)    -- `a{lo,hi}`, `a+`, greedy
  | grp (n : Cap) (a : RE)                        -- `(?P<n>a)`
  | bos                                           -- `^`
  | eos                                           -- `$`
deriving DecidableEq, Repr

/-! ### Reader for pattern text -/

namespace Read

def capNames : List (String × Cap) :=
  [("type", .type), ("station", .station), ("day", .day), ("hour", .hour), ("min", .min),
   ("minute", .minute), ("mod", .mod), ("dir", .dir), ("speed", .speed), ("gust", .gust),
   ("units", .units), ("units2", .units2), ("from", .from_), ("to", .to), ("vis", .vis),
   ("integer", .integer), ("fraction", .fraction), ("cavok", .cavok), ("name", .name),
   ("rvrlow", .rvrlow), ("low", .low), ("rvrhigh", .rvrhigh), ("high", .high),
   ("trend", .trend), ("int", .int), ("desc", .desc), ("prec", .prec), ("obsc", .obsc),
   ("other", .other), ("cover", .cover), ("height", .height), ("tsign", .tsign),
   ("temp", .temp), ("dsign", .dsign), ("dewpt", .dewpt), ("press", .press), ("all", .all),
   ("sign", .sign), ("state", .state), ("deposit", .deposit), ("cont", .cont),
   ("depth", .depth), ("fric", .fric), ("snoclo", .snoclo), ("clrd", .clrd),
   ("prefix", .prefix), ("rmk", .rmk), ("fmday", .fmday), ("fmhour", .fmhour),
   ("tlday", .tlday), ("tlhour", .tlhour), ("percent", .percent), ("frac", .frac),
   ("Y", .sY), ("m", .sm), ("d", .sd), ("H", .sH), ("M", .sM)]

def single (c : Char) : CC := .set [(c.toNat, c.toNat)]

/-- The escape `\c`. -/
def escape (c : Char) : CC :=
  match c with
  | 'd' => .digit
  | 's' => .space
  | 'n' => single '\n'
  | 't' => single '\t'
  | c => single c

/-- Body of `[...]` after the opening bracket (no escapes, no negation). -/
partial def cls : List Char → List (Nat × Nat) → Option (List (Nat × Nat) × List Char)
  | ']' :: t, acc => some (acc.reverse, t)
  | a :: '-' :: ']' :: t, acc => cls (']' :: t) ((45, 45) :: (a.toNat, a.toNat) :: acc)
  | a :: '-' :: b :: t, acc => cls t ((a.toNat, b.toNat) :: acc)
  | a :: t, acc => cls t ((a.toNat, a.toNat) :: acc)
  | [], _ => none

partial def number (t : List Char) (acc : Option Nat) : Option Nat × List Char :=
  match t with
  | c :: t' => if c.isDigit then number t' (some (10 * acc.getD 0 + (c.toNat - 48))) else (acc, t)
  | [] => (acc, t)

def mkSeq : List RE → RE
  | [] => .eps
  | [a] => a
  | a :: t => .seq a (mkSeq t)

mutual
/-- alternatives separated by `|` -/
partial def alts (t : List Char) : Option (RE × List Char) := do
  let (a, t) ← items t []
  match t with
  | '|' :: t => let (b, t) ← alts t; return (.alt a b, t)
  | _ => return (a, t)

/-- a sequence of quantified atoms -/
partial def items (t : List Char) (acc : List RE) : Option (RE × List Char) :=
  match t with
  | [] => some (mkSeq acc.reverse, [])
  | '|' :: _ => some (mkSeq acc.reverse, t)
  | ')' :: _ => some (mkSeq acc.reverse, t)
  | _ => do
    let (a, t) ← atom t
    let (a, t) ← quant a t
    items t (a :: acc)

partial def atom (t : List Char) : Option (RE × List Char) :=
  match t with
  | '^' :: t => some (.bos, t)
  | '$' :: t => some (.eos, t)
  | '(' :: '?' :: 'P' :: '<' :: t => do
    let nm := t.takeWhile (· ≠ '>')
    let t := (t.dropWhile (· ≠ '>')).drop 1
    let n ← capNames.lookup (String.ofList nm)
    let (a, t) ← alts t
    match t with
    | ')' :: t => return (.grp n a, t)
    | _ => none
  | '(' :: t => do
    let (a, t) ← alts t
    match t with
    | ')' :: t => return (a, t)
    | _ => none
  | '[' :: t => do let (rs, t) ← cls t []; return (.chr (.set rs), t)
  | '\\' :: c :: t => some (.chr (escape c), t)
  | c :: t => some (.chr (single c), t)
  | [] => none

partial def quant (a : RE) (t : List Char) : Option (RE × List Char) :=
  match t, a with
  | '?' :: t, _ => some (.opt a, t)
  | '+' :: t, .chr cc => some (.rep cc 1 none, t)
  | '{' :: t, .chr cc =>
    let (lo, t) := number t none
    match lo, t with
    | some lo, '}' :: t => some (.rep cc lo (some lo), t)
    | some lo, ',' :: t =>
      let (hi, t) := number t none
      match t with
      | '}' :: t => some (.rep cc lo hi, t)
      | _ => none
    | _, _ => none
  | '+' :: _, _ => none
  | '{' :: _, _ => none
  | _, _ => some (a, t)
end

def re (s : String) : Option RE :=
  match alts s.toList with
  | some (a, []) => some a
  | _ => none

open Lean

def natE (n : Nat) : Expr := mkNatLit n
def capE (c : Cap) : Expr :=
  mkConst (`Verif.Cap ++ ((toString (repr c)).splitOn ".").getLast!.toName)
def ccE : CC → Expr
  | .set rs => mkApp (mkConst ``CC.set) (toExpr rs)
  | .digit => mkConst ``CC.digit
  | .space => mkConst ``CC.space
def reE : RE → Expr
  | .eps => mkConst ``RE.eps
  | .chr cc => mkApp (mkConst ``RE.chr) (ccE cc)
  | .seq a b => mkApp2 (mkConst ``RE.seq) (reE a) (reE b)
  | .alt a b => mkApp2 (mkConst ``RE.alt) (reE a) (reE b)
  | .opt a => mkApp (mkConst ``RE.opt) (reE a)
  | .rep cc lo hi => mkApp3 (mkConst ``RE.rep) (ccE cc) (toExpr lo) (toExpr hi)
  | .grp n a => mkApp2 (mkConst ``RE.grp) (capE n) (reE a)
  | .bos => mkConst ``RE.bos
  | .eos => mkConst ``RE.eos

end Read

open Lean Elab Term in
/-- `re! [r"...", r"..."]` : the pattern whose text is the concatenation of the literals. -/
elab:max "re!" "[" ss:str,* "]" : term => do
  let s := String.join (ss.getElems.toList.map (·.getString))
  match Read.re s with
  | some r => return Read.reE r
  | none => throwError "cannot read pattern {s}"

/-! ### Matching -/

/-- Captured groups, latest first: name, start, end. -/
abbrev Caps := List (Cap × Nat × Nat)

/-- A state of the matcher: position and captures. -/
abbrev St := Nat × Caps

/-- Length of the longest run (at most `fuel`) of characters of class `cc` from `p`. -/
def runLen (s : PyStr) (cc : CC) : Nat → Nat → Nat
  | 0, _ => 0
  | f + 1, p =>
    match s[p]? with
    | some c => if cc.mem c then runLen s cc f (p + 1) + 1 else 0
    | none => 0

/-- `[p + k | k = n, n-1, ..., lo]` with the captures `cs`. -/
def downFrom (p : Nat) (cs : Caps) (lo : Nat) : Nat → List St
  | 0 => if lo = 0 then [(p, cs)] else []
  | n + 1 => if lo ≤ n + 1 then (p + (n + 1), cs) :: downFrom p cs lo n else []

/-- `$`: at the end of the string or just before a newline that ends it. -/
def atEnd (s : PyStr) (p : Nat) : Bool :=
  p == s.length || (p + 1 == s.length && s[p]? == some 10)

/-- All matches of the pattern in `s` from a state, in order of preference. -/
def RE.m (s : PyStr) : RE → St → List St
  | .eps, st => [st]
  | .chr cc, st =>
    match s[st.1]? with
    | some c => if cc.mem c then [(st.1 + 1, st.2)] else []
    | none => []
  | .seq a b, st => (RE.m s a st).flatMap (RE.m s b)
  | .alt a b, st => RE.m s a st ++ RE.m s b st
  | .opt a, st => RE.m s a st ++ [st]
  | .rep cc lo hi, st => downFrom st.1 st.2 lo (runLen s cc (hi.getD s.length) st.1)
  | .grp n a, st => (RE.m s a st).map fun st' => (st'.1, (n, st.1, st'.1) :: st'.2)
  | .bos, st => if st.1 = 0 then [st] else []
  | .eos, st => if atEnd s st.1 then [st] else []

/-- A match object: `string`, end position, captures. -/
structure Match where
  string : PyStr
  stop : Nat
  caps : Caps
deriving DecidableEq, Repr

/-- `match.group("n")`. -/
def Match.group (m : Match) (n : Cap) : Option PyStr :=
  (m.caps.lookup n).map fun (a, b) => (m.string.drop a).take (b - a)

/-- `re.match(r, s)`. -/
def RE.match (r : RE) (s : PyStr) : Option Match :=
  (RE.m s r (0, [])).head?.map fun st => ⟨s, st.1, st.2⟩

/-- `re.search(r, s)` for a pattern without `^`: the leftmost suffix at which the pattern matches.
`string` of the result is that suffix (the library only reads the groups). -/
def RE.search (r : RE) : PyStr → Option Match
  | [] => r.match []
  | c :: t =>
    match r.match (c :: t) with
    | some m => some m
    | none => r.search t

/-- Worker of `re.sub` for patterns that match no empty string: number of replacements left
(`none` = no limit), number of characters to skip, text. -/
def RE.subGo (r : RE) (repl : PyStr) : Option Nat → Nat → PyStr → PyStr
  | _, _, [] => []
  | n, k + 1, _ :: t => r.subGo repl n k t
  | some 0, 0, s => s
  | n, 0, c :: t =>
    match r.match (c :: t) with
    | some m =>
      if m.stop = 0 then c :: r.subGo repl n 0 t
      else repl ++ r.subGo repl (n.map (· - 1)) (m.stop - 1) t
    | none => c :: r.subGo repl n 0 t

/-- `re.sub(r, repl, s, count=count)`; `count = 0` means all. None of the replacement texts of the
library contains a backslash, so they are inserted literally. -/
def RE.sub (r : RE) (repl s : PyStr) (count : Nat) : PyStr :=
  r.subGo repl (if count = 0 then none else some count) 0 s

end Verif
