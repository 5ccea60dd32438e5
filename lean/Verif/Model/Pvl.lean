/-
Model of the PVL (PDS3 label) parser: `pdr/parselabel/pds3.py`.
-/
import Verif.Model.Py

namespace Verif.Pvl
open Verif.Py

/-- A parsed label value: a raw/interpreted leaf or a nested block.
Models the values held by `multidict.MultiDict` as used in pds3.py 82-131: a MultiDict is an ordered
list of (key, value) pairs in which keys may repeat. -/
inductive Tree (α : Type) where
  | leaf (a : α)
  | node (kids : List (Str × Tree α))

/-- A `MultiDict`: ordered, keys may repeat (pds3.py 18, 88). -/
abbrev MDict (α : Type) := List (Str × Tree α)

/-- A PVL statement: parameter and raw value text (pds3.py 61, 79). -/
abbrev Stmt := Str × Str

/-! ### Comments and lines (pds3.py 143-147) -/

/-- pds3.py 143: `re.sub(r"/\*.*?(\r|\n|/\*)", "\n", label)`. The regex, tried at a position holding
`/*`, matches up to and including the first CR, LF or further `/*` (`.` does not match LF, but the LF
itself ends the match). `commentEnd s` is what follows that match in `s` (the text after the opening
`/*`), or `none` when there is no such terminator, in which case the regex does not match here. -/
def commentEnd : Str → Option Str
  | [] => none
  | '\r' :: cs => some cs
  | '\n' :: cs => some cs
  | '/' :: '*' :: cs => some cs
  | _ :: cs => commentEnd cs

theorem commentEnd_length {s r : Str} (h : commentEnd s = some r) : r.length < s.length := by
  fun_induction commentEnd s <;> simp_all <;> omega

/-- pds3.py 143: the whole `re.sub`, scanning left to right without overlaps. -/
def stripComments (s : Str) : Str :=
  match s with
  | [] => []
  | '/' :: '*' :: cs =>
    match _h : commentEnd cs with
    | some rest => '\n' :: stripComments rest
    | none => '/' :: stripComments ('*' :: cs)
  | c :: cs => c :: stripComments cs
termination_by s.length
decreasing_by
  · have := commentEnd_length _h; simp; omega
  · simp
  · simp

/-- pds3.py 144-146: split at LF, strip every line, drop the empty ones. -/
def trimmedLines (text : Str) : List Str :=
  ((splitOn '\n' text).map strip).filter (fun l => !l.isEmpty)

/-! ### Statements (pds3.py 33-79) -/

/-- pds3.py 26, 33-38: `re.match(r"END(_OBJECT|$)", line).group()`, or `None`.
`$` also matches just before a final LF; lines reaching this function contain no LF (they come from
splitting at LF), but the case is modelled anyway. -/
def blockTerminal (line : Str) : Option Str :=
  if startsWith line c!"END_OBJECT" then some c!"END_OBJECT"
  else if line = c!"END" ∨ line = c!"END\n" then some c!"END"
  else none

/-- pds3.py 41-58 -/
def isAssignmentLine (line : Str) : Bool :=
  if '=' ∉ line then (blockTerminal line).isSome
  else
    let start := line.take 8
    start == upper start

/-- `more_itertools.split_before(lines, pred)` (pds3.py 64): a new group starts before each line
satisfying `pred`; never yields an empty group. `acc` is the current group, reversed. -/
def splitBefore (pred : Str → Bool) : List Str → List Str → List (List Str)
  | acc, [] => if acc.isEmpty then [] else [acc.reverse]
  | acc, l :: ls =>
    if pred l && !acc.isEmpty then acc.reverse :: splitBefore pred [l] ls
    else splitBefore pred (l :: acc) ls

/-- Body of the loop of `chunk_statements` for one group of lines (pds3.py 61-79); `none` models
`continue` without appending (pds3.py 71-76: the assignment line does not have exactly one `=`). -/
def groupStatement (group : List Str) : Option Stmt :=
  match group with
  | [] => none          -- `split_before` never yields an empty group
  | a :: rest =>
    match blockTerminal a with
    | some t => some (t, [])
    | none =>
      match splitOn '=' a with
      | [p, v] => some (strip p, strip v ++ join c!" " (rest.map strip))
      | _ => none

/-- pds3.py 61-79 -/
def chunkStatements (lines : List Str) : List Stmt :=
  (splitBefore isAssignmentLine [] lines).filterMap groupStatement

/-! ### Blocks (pds3.py 82-131) -/

/-- pds3.py 25 -/
def blockInitials : List Str := [c!"OBJECT", c!"GROUP", c!"BEGIN_OBJECT", c!"BEGIN_GROUP"]

/-- State of `BlockParser` (pds3.py 87-89). `stack` pairs every open block name with the
aggregation being filled, innermost first; `root` is `aggregations[0]`. (`names` and
`aggregations[1:]` always have the same length in the code: both are pushed by `_step_in` and popped
by `_step_out`.) -/
structure Parser where
  root : MDict Str := []
  stack : List (Str × MDict Str) := []
  params : List Str := []

/-- pds3.py 100-103 `add_statement` -/
def Parser.add (p : Parser) (key : Str) (v : Tree Str) : Parser :=
  match p.stack with
  | [] => { p with root := p.root ++ [(key, v)], params := p.params ++ [key] }
  | (n, agg) :: rest =>
    { p with stack := (n, agg ++ [(key, v)]) :: rest, params := p.params ++ [key] }

/-- pds3.py 95-98 `_step_in` -/
def Parser.stepIn (p : Parser) (name : Str) : Parser := { p with stack := (name, []) :: p.stack }

/-- pds3.py 91-93 `_step_out`; with no open block the caller ignores the statement (119-121). -/
def Parser.stepOut (p : Parser) : Parser :=
  match p.stack with
  | [] => p
  | (n, agg) :: rest => ({ p with stack := rest } : Parser).add n (.node agg)

/-- pds3.py 113-121, one statement. -/
def Parser.step (p : Parser) (s : Stmt) : Parser :=
  if s.1 ∈ blockInitials then p.stepIn s.2
  else if startsWith s.1 c!"END" then p.stepOut
  else p.add s.1 (.leaf s.2)

/-- pds3.py 105-131 `parse_statements`: the root aggregation and the flat parameter list. The
"leftover aggregations" warning is the third component. -/
def parseStatements (ss : List Stmt) : MDict Str × List Str × Bool :=
  let p := ss.foldl Parser.step {}
  (p.root, p.params, !p.stack.isEmpty)

/-- pds3.py 139-153 without pointer deduplication and literalisation: text to raw tree. -/
def parseText (text : Str) : MDict Str × List Str × Bool :=
  parseStatements (chunkStatements (trimmedLines (stripComments text)))

end Verif.Pvl
