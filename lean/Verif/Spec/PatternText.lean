import Verif.Py.Regex

/-
The grammar of pattern texts, as in the documentation of Python's `re`, for the constructs that the
library uses. A piece of syntax has a text and means a pattern.

* an ordinary character stands for itself; `\d` and `\s` are classes, `\n` and `\t` the control
  characters, and a backslash before a character that is no letter or digit gives that character;
* `[...]` is one of the characters and ranges listed;
* `^`, `$`, `(...)`, `(?P<name>...)`;
* after one of these, `?`; after a one-character pattern also `+`, `{m}`, `{m,}` and `{m,n}`;
* juxtaposition binds more tightly than `|`.
-/

namespace Verif.Spec

/-- What is written for one character. -/
inductive One where
  | plain (c : Nat)
  | esc (c : Nat)
  | cls (items : List (Nat × Option Nat))       -- `a` or `a-b`
deriving DecidableEq, Repr

/-- What is written for a pattern. -/
inductive Syn where
  | one (o : One)
  | caret
  | dollar
  | group (a : Syn)
  | named (n : Cap) (a : Syn)
  | opt (a : Syn)
  | plus (o : One)
  | times (o : One) (m : Nat)
  | atLeast (o : One) (m : Nat)
  | between (o : One) (m n : Nat)
  | empty
  | cat (a b : Syn)
  | bar (a b : Syn)
deriving DecidableEq, Repr

/-- The name of a group as it is written. -/
def capText : Cap → PyStr
  | .type => py!"type" | .station => py!"station" | .day => py!"day" | .hour => py!"hour"
  | .min => py!"min" | .minute => py!"minute" | .mod => py!"mod" | .dir => py!"dir"
  | .speed => py!"speed" | .gust => py!"gust" | .units => py!"units" | .units2 => py!"units2"
  | .from_ => py!"from" | .to => py!"to" | .vis => py!"vis" | .integer => py!"integer"
  | .fraction => py!"fraction" | .cavok => py!"cavok" | .name => py!"name"
  | .rvrlow => py!"rvrlow" | .low => py!"low" | .rvrhigh => py!"rvrhigh" | .high => py!"high"
  | .trend => py!"trend" | .int => py!"int" | .desc => py!"desc" | .prec => py!"prec"
  | .obsc => py!"obsc" | .other => py!"other" | .cover => py!"cover" | .height => py!"height"
  | .tsign => py!"tsign" | .temp => py!"temp" | .dsign => py!"dsign" | .dewpt => py!"dewpt"
  | .press => py!"press" | .all => py!"all" | .sign => py!"sign" | .state => py!"state"
  | .deposit => py!"deposit" | .cont => py!"cont" | .depth => py!"depth" | .fric => py!"fric"
  | .snoclo => py!"snoclo" | .clrd => py!"clrd" | .prefix => py!"prefix" | .rmk => py!"rmk"
  | .fmday => py!"fmday" | .fmhour => py!"fmhour" | .tlday => py!"tlday"
  | .tlhour => py!"tlhour" | .percent => py!"percent" | .frac => py!"frac"
  | .sY => py!"Y" | .sm => py!"m" | .sd => py!"d" | .sH => py!"H" | .sM => py!"M"

/-- A character or range inside brackets. -/
def itemText : Nat × Option Nat → PyStr
  | (a, none) => [a]
  | (a, some b) => a :: py!"-" ++ [b]

def One.text : One → PyStr
  | .plain c => [c]
  | .esc c => py!"\\" ++ [c]
  | .cls items => py!"[" ++ items.flatMap itemText ++ py!"]"

def Syn.text : Syn → PyStr
  | .one o => o.text
  | .caret => py!"^"
  | .dollar => py!"$"
  | .group a => py!"(" ++ a.text ++ py!")"
  | .named n a => py!"(?P<" ++ capText n ++ py!">" ++ a.text ++ py!")"
  | .opt a => a.text ++ py!"?"
  | .plus o => o.text ++ py!"+"
  | .times o m => o.text ++ py!"{" ++ [48 + m] ++ py!"}"
  | .atLeast o m => o.text ++ py!"{" ++ [48 + m] ++ py!",}"
  | .between o m n => o.text ++ py!"{" ++ [48 + m] ++ py!"," ++ [48 + n] ++ py!"}"
  | .empty => []
  | .cat a b => a.text ++ b.text
  | .bar a b => a.text ++ py!"|" ++ b.text

/-- The characters that are meant. -/
def One.means : One → CC
  | .plain c => .set [(c, c)]
  | .esc c =>
    if c = 100 then .digit            -- d
    else if c = 115 then .space       -- s
    else if c = 110 then .set [(10, 10)]
    else if c = 116 then .set [(9, 9)]
    else .set [(c, c)]
  | .cls items => .set (items.map fun i => (i.1, i.2.getD i.1))

def Syn.means : Syn → RE
  | .one o => .chr o.means
  | .caret => .bos
  | .dollar => .eos
  | .group a => a.means
  | .named n a => .grp n a.means
  | .opt a => .opt a.means
  | .plus o => .rep o.means 1 none
  | .times o m => .rep o.means m (some m)
  | .atLeast o m => .rep o.means m none
  | .between o m n => .rep o.means m (some n)
  | .empty => .eps
  | .cat a b => .seq a.means b.means
  | .bar a b => .alt a.means b.means

/-- The characters with a meaning of their own outside brackets. -/
def special : PyStr := py!".^$*+?{}[]\\|()"

/-- Letters and digits of ASCII. -/
def alnum (c : Nat) : Bool := (48 ≤ c && c ≤ 57) || (65 ≤ c && c ≤ 90) || (97 ≤ c && c ≤ 122)

def inBrackets (c : Nat) : Bool := !(py!"]\\[^-").contains c

def One.ok : One → Bool
  | .plain c => !special.contains c
  | .esc c => py!"dsnt".contains c || !alnum c
  | .cls items => !items.isEmpty &&
      items.all fun i => inBrackets i.1 && i.2.all fun b => inBrackets b && i.1 ≤ b

/-- The pieces to which `?` applies. -/
def Syn.isAtom : Syn → Bool
  | .one _ | .caret | .dollar | .group _ | .named _ _ => true
  | _ => false

/-- The pieces that are not a sequence or alternatives. -/
def Syn.isPiece : Syn → Bool
  | .empty | .cat _ _ | .bar _ _ => false
  | _ => true

/-- Grammatical. -/
def Syn.ok : Syn → Bool
  | .one o => o.ok
  | .caret | .dollar | .empty => true
  | .group a | .named _ a => a.ok
  | .opt a => a.isAtom && a.ok
  | .plus o => o.ok
  | .times o m | .atLeast o m => o.ok && m < 10
  | .between o m n => o.ok && m < 10 && n < 10 && m ≤ n
  | .cat a b => a.isPiece && a.ok && b.ok && (b.isPiece || match b with | .cat _ _ => true | _ => false)
  | .bar a b => a.ok && b.ok && match a with | .bar _ _ => false | _ => true

/-- The text is that of the pattern. -/
def Denotes (text : PyStr) (r : RE) : Prop := ∃ a : Syn, a.ok = true ∧ a.text = text ∧ a.means = r

end Verif.Spec
