import Verif.Py.Str

/-
Specification of the rewriting done before a text is split into groups, independent of regular
expressions: a rule says which texts are replaced, and by what; it is applied to the leftmost place
where it applies, a limited number of times.
-/

namespace Verif.Spec

/-- `R o post new`: the text `o`, when followed by `post`, is to be replaced by `new`. -/
abbrev Rule := PyStr → PyStr → PyStr → Prop

/-- The rule applies nowhere in the text. -/
def Absent (R : Rule) (s : PyStr) : Prop := ∀ pre o post new, s = pre ++ (o ++ post) → ¬ R o post new

/-- The leftmost text to which the rule applies is replaced. -/
def First (R : Rule) (s s' : PyStr) : Prop :=
  ∃ pre o post new, s = pre ++ (o ++ post) ∧ R o post new ∧ s' = pre ++ (new ++ post) ∧
    ∀ pre' o' post' new', s = pre' ++ (o' ++ post') → R o' post' new' → pre.length ≤ pre'.length

/-- The rule is applied at most `n` times, as long as it applies. -/
inductive UpTo (R : Rule) : Nat → PyStr → PyStr → Prop where
  | stop (s : PyStr) : UpTo R 0 s s
  | done {n : Nat} {s : PyStr} : Absent R s → UpTo R n s s
  | step {n : Nat} {s t u : PyStr} : First R s t → UpTo R n t u → UpTo R (n + 1) s u

/-- The rule is applied everywhere, from left to right. -/
inductive Everywhere (R : Rule) : PyStr → PyStr → Prop where
  | nil : Everywhere R [] []
  | skip {c : Nat} {t t' : PyStr} : (∀ o post new, c :: t = o ++ post → ¬ R o post new) →
      Everywhere R t t' → Everywhere R (c :: t) (c :: t')
  | hit {o post new post' : PyStr} : R o post new → Everywhere R post post' →
      Everywhere R (o ++ post) (new ++ post')

/-- A whole number and a fraction of miles, between white space: they are joined by `_` and
surrounded by blanks. White space after the fraction is part of the replaced text. -/
def visRule : Rule := fun o post new => ∃ a ds b x y tail,
  o = a :: (ds ++ b :: x :: py!"/" ++ y :: py!"SM" ++ tail) ∧
  isSpace a = true ∧ ds ≠ [] ∧ (∀ d ∈ ds, isDigit d = true) ∧ isSpace b = true ∧
  isDigit x = true ∧ isDigit y = true ∧
  ((tail = [] ∧ ∀ c, post.head? = some c → isSpace c = false) ∨ ∃ c, tail = [c] ∧ isSpace c = true) ∧
  new = py!" " ++ ds ++ py!"_" ++ x :: py!"/" ++ y :: py!"SM "

/-- Wind shear of all runways. -/
def wsAllRule : Rule := fun o _ new => ∃ a b,
  o = py!"WS" ++ a :: py!"ALL" ++ b :: py!"RWY" ∧ isSpace a = true ∧ isSpace b = true ∧
  new = py!"WS_ALL_RWY"

/-- Wind shear of one runway: two digits and, if there is one, the letter C, L or R. -/
def wsRule : Rule := fun o post new => ∃ a wy x y side,
  o = py!"WS" ++ a :: py!"R" ++ wy ++ x :: y :: side ∧ isSpace a = true ∧
  (wy = [] ∨ wy = py!"WY") ∧ isDigit x = true ∧ isDigit y = true ∧
  ((side = [] ∧ ∀ c, post.head? = some c → c ∉ py!"CLR") ∨ ∃ c ∈ py!"CLR", side = [c]) ∧
  new = py!"WS_R" ++ x :: y :: side

/-- A probable temporary change. -/
def probRule : Rule := fun o _ new => ∃ a d,
  o = py!"PROB" ++ d :: py!"0" ++ a :: py!"TEMPO" ∧ (d ∈ py!"34") ∧ isSpace a = true ∧
  new = py!"PROB" ++ d :: py!"0_TEMPO"

/-- At most one replacement at a place. -/
def Exact (R : Rule) : Prop := ∀ o post new o' post' new', o ++ post = o' ++ post' →
  R o post new → R o' post' new' → o = o' ∧ new = new'

/-! ### Visibility in words -/

/-- A whole number and a word that begins with a fraction of miles. -/
def isPair (w v : PyStr) : Bool :=
  w ≠ [] && w.all isDigit &&
  match v with
  | x :: 47 :: y :: 83 :: 77 :: _ => isDigit x && isDigit y
  | _ => false

/-- The first such pair of neighbours is joined. What follows the fraction in the same word becomes
a word of its own; at the end of the text an empty word is added. -/
def joinPair : List PyStr → Option (List PyStr)
  | w :: v :: rest =>
    if isPair w v then
      some ((w ++ py!"_" ++ v.take 5) ::
        (if v.drop 5 = [] ∧ rest ≠ [] then rest else v.drop 5 :: rest))
    else (joinPair (v :: rest)).map (w :: ·)
  | _ => none

/-- The first pairs are joined, at most `n` of them. -/
def joinPairs : Nat → List PyStr → List PyStr
  | 0, ws => ws
  | n + 1, ws =>
    match joinPair ws with
    | none => ws
    | some ws' => joinPairs n ws'

/-! ### Change indicators in words -/

/-- A word that ends with PROB30 or PROB40 and a word that begins with TEMPO. -/
def isProb (w v : PyStr) : Bool :=
  (py!"PROB30".isSuffixOf w || py!"PROB40".isSuffixOf w) && py!"TEMPO".isPrefixOf v

/-- The first such pair of neighbours is joined. -/
def joinProb : List PyStr → Option (List PyStr)
  | w :: v :: rest =>
    if isProb w v then some ((w ++ py!"_" ++ v) :: rest) else (joinProb (v :: rest)).map (w :: ·)
  | _ => none

/-- The first pairs are joined, at most `n` of them. -/
def joinProbs : Nat → List PyStr → List PyStr
  | 0, ws => ws
  | n + 1, ws =>
    match joinProb ws with
    | none => ws
    | some ws' => joinProbs n ws'

/-! ### Wind shear in words -/

/-- A word that ends with WS, the word ALL and a word that begins with RWY. -/
def isAll (w a v : PyStr) : Bool :=
  py!"WS".isSuffixOf w && a == py!"ALL" && py!"RWY".isPrefixOf v

/-- All such triples are joined, from left to right. -/
def joinAll : List PyStr → List PyStr
  | w :: a :: v :: rest =>
    if isAll w a v then
      match joinAll (v.drop 3 :: rest) with
      | [] => []
      | x :: xs => (w ++ py!"_ALL_RWY" ++ x) :: xs
    else w :: joinAll (a :: v :: rest)
  | ws => ws
termination_by ws => ws.length

/-- A word that begins with a runway, without its letters R or RWY. -/
def shearTail : PyStr → Option PyStr
  | 82 :: 87 :: 89 :: x :: y :: t => if isDigit x && isDigit y then some (x :: y :: t) else none
  | 82 :: x :: y :: t => if isDigit x && isDigit y then some (x :: y :: t) else none
  | _ => none

/-- The first word that ends with WS and is followed by a runway is joined to it. -/
def joinShear : List PyStr → Option (List PyStr)
  | w :: v :: rest =>
    match py!"WS".isSuffixOf w, shearTail v with
    | true, some t => some ((w ++ py!"_R" ++ t) :: rest)
    | _, _ => (joinShear (v :: rest)).map (w :: ·)
  | _ => none

/-- At most `n` of them. -/
def joinShears : Nat → List PyStr → List PyStr
  | 0, ws => ws
  | n + 1, ws =>
    match joinShear ws with
    | none => ws
    | some ws' => joinShears n ws'

end Verif.Spec
