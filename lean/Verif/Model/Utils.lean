import Verif.Py.Regex

/- Model of `aeromet_py/utils/parser.py` and `aeromet_py/utils/split.py`. -/

namespace Verif

/-- The pattern of `sanitize_visibility` (parser.py 17). -/
def sanVisRE : RE := re! [r"\s(?P<int>\d+)\s(?P<frac>\d/\dSM)\s?"]

/-- One turn of the loop of `sanitize_visibility` (parser.py 20-25); `none` is `break`. -/
def sanVisStep (report : PyStr) : Option PyStr :=
  match sanVisRE.search report with
  | none => none
  | some m =>
    let repl := py!" " ++ (m.group .int).getD [] ++ py!"_" ++ (m.group .frac).getD [] ++ py!" "
    some (sanVisRE.sub repl report 1)

/-- Repeat a step at most `n` times, stopping when it has nothing to do. -/
def loopUpTo (step : PyStr → Option PyStr) : Nat → PyStr → PyStr
  | 0, s => s
  | n + 1, s =>
    match step s with
    | none => s
    | some s' => loopUpTo step n s'

/-- `sanitize_visibility` (parser.py 6-27). -/
def sanitizeVisibility (report : PyStr) : PyStr := loopUpTo sanVisStep 3 report

/-- First pattern of `sanitize_windshear` (parser.py 40). -/
def sanWsAllRE : RE := re! [r"WS\sALL\sRWY"]
/-- Second pattern of `sanitize_windshear` (parser.py 42). -/
def sanWsRE : RE := re! [r"WS\sR(WY)?(?P<name>\d{2}[CLR]?)"]

/-- One turn of the loop of `sanitize_windshear` (parser.py 45-47). When there is no match the
turn does nothing, and so do all later turns, so stopping is the same. -/
def sanWsStep (report : PyStr) : Option PyStr :=
  match sanWsRE.search report with
  | none => none
  | some m => some (sanWsRE.sub (py!"WS_R" ++ (m.group .name).getD []) report 1)

/-- `sanitize_windshear` (parser.py 30-49). -/
def sanitizeWindshear (report : PyStr) : PyStr :=
  loopUpTo sanWsStep 3 (sanWsAllRE.sub py!"WS_ALL_RWY" report 0)

/-- The pattern of `sanitize_change_indicator` (parser.py 62). -/
def sanProbRE : RE := re! [r"PROB(?P<percent>[34]0)\sTEMPO"]

/-- One turn of the loop of `sanitize_change_indicator` (parser.py 65-71). -/
def sanProbStep (report : PyStr) : Option PyStr :=
  match sanProbRE.search report with
  | none => none
  | some m =>
    some (sanProbRE.sub (py!"PROB" ++ (m.group .percent).getD [] ++ py!"_TEMPO") report 1)

/-- `sanitize_change_indicator` (parser.py 52-73). -/
def sanitizeChangeIndicator (report : PyStr) : PyStr := loopUpTo sanProbStep 5 report

/-- A pattern made of ordinary characters only, as `re.compile(kw)` for the keywords of
`split_sentence` (letters and blanks). -/
def RE.ofLit : PyStr → RE
  | [] => .eps
  | [c] => .chr (.set [(c, c)])
  | c :: t => .seq (.chr (.set [(c, c)])) (RE.ofLit t)

/-- The `space` argument of `split_sentence` (the reports use `left` and `both`). -/
inductive Space where
  | left
  | right
  | both
  | none
deriving DecidableEq, Repr

/-- `_add_space_left` (split.py 6-8), `_add_space_right` (11-13) and `_add_space_both` (16-19), chosen
as in 39-46; any other text for `space` adds nothing. -/
def Space.add (sp : Space) (kw : PyStr) : PyStr :=
  match sp with
  | .left => 32 :: kw
  | .right => kw ++ [32]
  | .both => 32 :: (kw ++ [32])
  | .none => kw

/-- `split_sentence` (split.py 22-55). -/
def splitSentence (sentence : PyStr) (keywords : List PyStr) (count : Nat) (space : Space) :
    List PyStr :=
  splitC 124 (keywords.foldl (fun s kw =>
    let kw := space.add kw
    (RE.ofLit kw).sub (124 :: lstrip kw) s count) sentence)

end Verif
