import Verif.Py.Exc
import Verif.Py.Float
import Verif.Py.Regex

/-
Model of `reports/models/base/group.py` (Group, GroupList), of `parse_section`
(`reports/models/base/__init__.py`) and of the dictionaries returned by `as_dict`.
-/

namespace Verif

/-- The values found in the dictionaries returned by `as_dict`. -/
inductive PyVal where
  | none
  | bool (b : Bool)
  | str (s : PyStr)
  | float (x : F64)
  | list (l : List PyVal)
  | dict (d : List (PyStr × PyVal))
deriving Repr

/-- An optional string as a dictionary value. -/
def PyVal.ofStr : Option PyStr → PyVal
  | .none => .none
  | some s => .str s

/-- An optional float as a dictionary value. -/
def PyVal.ofFloat : Option F64 → PyVal
  | .none => .none
  | some x => .float x

/-- `d[k] = v`: replaces in place, or appends. -/
def dset (d : List (PyStr × PyVal)) (k : PyStr) (v : PyVal) : List (PyStr × PyVal) :=
  match d with
  | [] => [(k, v)]
  | (k', v') :: t => if k' = k then (k, v) :: t else (k', v') :: dset t k v

/-- `d.update(e)`. -/
def dupdate (d e : List (PyStr × PyVal)) : List (PyStr × PyVal) :=
  e.foldl (fun d kv => dset d kv.1 kv.2) d

/-- `Group.__init__` (group.py 16-19): the stored code. -/
def groupCode : Option PyStr → Option PyStr
  | none => none
  | some c => some (replace c py!"_" py!" ")

/-- `Group.as_dict` (group.py 38-41). -/
def groupDict (code : Option PyStr) : List (PyStr × PyVal) := [(py!"code", .ofStr code)]

/-- `GroupList` (group.py 51-58): the cursor `_n`, the capacity, and the items. -/
structure GroupList (α : Type) where
  n : Nat := 0
  max : Nat
  list : List α := []
deriving DecidableEq, Repr

namespace GroupList
variable {α : Type}

/-- `GroupList.__init__` (group.py 55-58). -/
def new (max : Nat) : GroupList α := { max := max }

/-- `GroupList.__next__` (group.py 66-73): the item (`none` is `StopIteration`) and the new state. -/
def next (g : GroupList α) : Option α × GroupList α :=
  if g.n ≥ g.list.length then (none, { g with n := 0 })
  else (g.list[g.n]?, { g with n := g.n + 1 })

/-- `GroupList.__getitem__` (group.py 75-80), with Python's negative indices. -/
def getItem (g : GroupList α) (i : Int) : Except Exc α :=
  if i ≥ g.max then .error .range
  else
    let j : Int := if i < 0 then i + g.list.length else i
    if j < 0 then .error .index
    else match g.list[j.toNat]? with
      | some a => .ok a
      | none => .error .index

/-- `GroupList.add` (group.py 85-92). -/
def add (g : GroupList α) (a : α) : Except Exc (GroupList α) :=
  if g.list.length ≥ g.max then .error .range
  else .ok { g with list := g.list ++ [a] }

/-- `GroupList.__str__` (group.py 60-61). -/
def str (strOf : α → PyStr) (g : GroupList α) : PyStr := join py!" | " (g.list.map strOf)

/-- The labels of `GroupList.as_dict` (group.py 107-118). -/
def labels : List PyStr :=
  [py!"first", py!"second", py!"third", py!"fourth", py!"fifth", py!"sixth", py!"seventh",
   py!"eighth", py!"nineth", py!"tenth"]

/-- Loop of `GroupList.as_dict` (group.py 119-120); `IndexError` when the labels run out. -/
def asDictGo (dictOf : α → Except Exc PyVal) : List PyStr → List α → List (PyStr × PyVal) →
    Except Exc (List (PyStr × PyVal))
  | _, [], d => .ok d
  | [], _ :: _, _ => .error .index
  | l :: ls, a :: as, d => do
    let v ← dictOf a
    asDictGo dictOf ls as (dset d l v)

/-- `GroupList.as_dict` (group.py 104-122). -/
def asDict (dictOf : α → Except Exc PyVal) (g : GroupList α) : Except Exc PyVal := do
  let d ← asDictGo dictOf labels g.list []
  return .dict d

/-- A complete `for x in g` / list comprehension: the items it yields and the final state. The
fuel bounds the number of turns; `length + 1` turns always reach `StopIteration`. -/
def iterGo : Nat → GroupList α → List α × GroupList α
  | 0, g => ([], g)
  | f + 1, g =>
    match g.next with
    | (none, g') => ([], g')
    | (some a, g') => let (l, g'') := iterGo f g'; (a :: l, g'')

def iter (g : GroupList α) : List α × GroupList α := iterGo (g.list.length + 1) g

end GroupList

/-- `GroupHandler` (group.py 10): a pattern and a method. The method acts on the state `σ` of the
report or forecast and may raise. -/
structure Handler (σ : Type) where
  regexp : RE
  run : Match → σ → Except Exc σ

/-- The inner loop of `parse_section` (`base/__init__.py` 40-50): the first handler of the list that
matches the group, with the number of handlers examined. -/
def tryHandlers {σ : Type} : List (Handler σ) → PyStr → Nat → Option (Nat × Match × Handler σ)
  | [], _, _ => none
  | h :: hs, g, counter =>
    match h.regexp.match g with
    | some m => some (counter + 1, m, h)
    | none => tryHandlers hs g (counter + 1)

/-- The outer loop of `parse_section` (`base/__init__.py` 38-50). `List.erase` removes the first
equal element, as `list.remove` does. -/
def parseGo {σ : Type} (handlers : List (Handler σ)) :
    List PyStr → Nat → List PyStr → σ → Except Exc (σ × List PyStr)
  | [], _, unparsed, s => .ok (s, unparsed)
  | g :: gs, index, unparsed, s =>
    let unparsed := unparsed ++ [g]
    match tryHandlers (handlers.drop index) g 0 with
    | none => parseGo handlers gs index unparsed s
    | some (counter, m, h) =>
      match h.run m s with
      | .error e => .error e
      | .ok s' => parseGo handlers gs (index + counter) (unparsed.erase g) s'

/-- `parse_section` (`base/__init__.py` 23-52). -/
def parseSection {σ : Type} (handlers : List (Handler σ)) (section_ : PyStr) (s : σ) :
    Except Exc (σ × List PyStr) :=
  parseGo handlers (splitC 32 section_) 0 [] s

end Verif
