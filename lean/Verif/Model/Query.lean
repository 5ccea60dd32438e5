/-
Model of the query system: `pdr/func.py`.

A function is its parameter list and an arbitrary (possibly failing) computation on the keyword arguments it is
given. Values are an arbitrary type.
-/
import Verif.Model.Py

namespace Verif.Query
open Verif.Py

/-- `inspect.Parameter.kind` -/
inductive Kind where
  | positionalOnly | positionalOrKeyword | varPositional | keywordOnly | varKeyword
  deriving DecidableEq

/-- `inspect.Parameter`: the annotation and the default as they appear in its string form -/
structure Param where
  name : Str
  kind : Kind := .positionalOrKeyword
  annotation : Option Str := none
  default : Option Str := none
  deriving DecidableEq

/-- `str(param)` (for parameters that are not `*args` or `**kwargs`, whose stars do not matter here) -/
def Param.text (p : Param) : Str :=
  match p.annotation, p.default with
  | none, none => p.name
  | some a, none => p.name ++ c!": " ++ a
  | none, some d => p.name ++ c!"=" ++ d
  | some a, some d => p.name ++ c!": " ++ a ++ c!" = " ++ d

/-- `re.split("[:=]", s)` -/
def splitColonEq : Str → List Str
  | [] => [[]]
  | c :: cs =>
    if c = ':' ∨ c = '=' then [] :: splitColonEq cs
    else match splitColonEq cs with
      | [] => [[c]]
      | w :: ws => (c :: w) :: ws

/-- `s.strip(" '")` -/
def stripQuotes (s : Str) : Str :=
  let drop := List.dropWhile (fun c => c == ' ' || c == '\'')
  (drop (drop s).reverse).reverse

/-- func.py 20-45 `not_optional` -/
def notOptional (p : Param) : Bool :=
  let parts := splitColonEq p.text
  let pstr := stripQuotes (if parts.length = 1 then parts.headD [] else (parts[1]?).getD [])
  if startsWith pstr c!"Optional[" || endsWith pstr c!" | None" || startsWith pstr c!"None | " then false
  else if p.name = c!"_" ∨ p.name = c!"__" then false
  else true

/-- a callable -/
structure Func (α : Type) where
  params : List Param
  run : List (Str × α) → Except PyErr α

variable {α : Type}

/-- func.py 15-17 `get_argnames` -/
def Func.argnames (f : Func α) : List Str := f.params.map Param.name

/-- func.py 48-56 `get_non_optional_argnames` -/
def Func.needs (f : Func α) : List Str := (f.params.filter notOptional).map Param.name

/-- func.py 76-83 `filterkwargs` -/
def filterKwargs (f : Func α) (kw : List (Str × α)) : List (Str × α) := kw.filter (fun p => decide (p.1 ∈ f.argnames))

/-- func.py 86-94 `call_kwargfiltered` -/
def callFiltered (f : Func α) (kw : List (Str × α)) : Except PyErr α := f.run (filterKwargs f kw)

/-- `kw[name]` -/
def lookup (name : Str) : List (Str × α) → Option α
  | [] => none
  | (k, v) :: rest => if k = name then some v else lookup name rest

/-- `kw[name] = v`: in place if the key is there, at the end otherwise -/
def put (name : Str) (v : α) : List (Str × α) → List (Str × α)
  | [] => [(name, v)]
  | (k, w) :: rest => if k = name then (k, v) :: rest else (k, w) :: put name v rest

/-- func.py 222-227, the loop of `softquery`: the names of the queries called, in order, and the arguments
afterwards or the exception of a query -/
def softLoop (toGet : List Str) : List (Str × Func α) → List (Str × α) → List Str × Except PyErr (List (Str × α))
  | [], kw => ([], .ok kw)
  | (q, g) :: rest, kw =>
    if q ∈ toGet then
      match callFiltered g kw with
      | .error e => ([q], .error e)
      | .ok v => (q :: (softLoop toGet rest (put q v kw)).1, (softLoop toGet rest (put q v kw)).2)
    else softLoop toGet rest kw

/-- func.py 214-221: the arguments that must be found -/
def argsToGet (f : Func α) (queries : List (Str × Func α)) (kw : List (Str × α)) : List Str :=
  ((f :: queries.map Prod.snd).flatMap Func.needs).filter (fun n => decide (n ∉ kw.map Prod.fst))

/-- func.py 199-228 `softquery` -/
def softquery (f : Func α) (queries : List (Str × Func α)) (kw : List (Str × α)) :
    List Str × Except PyErr (List (Str × α)) :=
  if (argsToGet f queries kw).any (fun n => decide (n ∉ queries.map Prod.fst)) then ([], .error .typeError)
  else softLoop (argsToGet f queries kw) queries kw

/-- what a special-case check answers: is it special, and the result if so -/
structure Check (α : Type) where
  params : List Param
  run : List (Str × α) → Except PyErr (Bool × α)

/-- func.py 164-196 `specialize` (keyword arguments only, no tracker). The two booleans say whether `func` was
called and whether the error handler was. -/
def specialize (f : Func α) (check : Check α) (handler : Option (PyErr → α)) (kw : List (Str × α)) :
    (Bool × Bool) × Except PyErr α :=
  match check.run (kw.filter (fun p => decide (p.1 ∈ check.params.map Param.name))) with
  | .ok (true, v) => ((false, false), .ok v)
  | .ok (false, _) =>
    match callFiltered f kw, handler with
    | .ok v, _ => ((true, false), .ok v)
    | .error e, none => ((true, false), .error e)
    | .error e, some h => ((true, true), .ok (h e))
  | .error e =>
    match handler with
    | none => ((false, false), .error e)
    | some h => ((false, true), .ok (h e))

/-- func.py 142-160: which of two parameters of the same name is dropped; the exception if their annotations
differ -/
def dropOf (p q : Param) : Except PyErr Param :=
  match p.annotation, q.annotation with
  | none, some _ => .ok p
  | some _, none => .ok q
  | none, none => .ok q
  | some a, some b => if a = b then .ok q else .error .typeError

/-- the inner part of the loop over pairs: `p` against everything after it -/
def unionAgainst (p : Param) : List Param → List Param → Except PyErr (List Param)
  | [], out => .ok out
  | q :: qs, out =>
    if p.name ≠ q.name then unionAgainst p qs out
    else match dropOf p q with
      | .error e => .error e
      | .ok d => unionAgainst p qs (out.filter (fun x => decide (x ≠ d)))

/-- func.py 139-160: the loop over `combinations(params, r=2)`; removing what is not there is ignored -/
def unionLoop : List Param → List Param → Except PyErr (List Param)
  | [], out => .ok out
  | p :: ps, out =>
    match unionAgainst p ps out with
    | .error e => .error e
    | .ok out' => unionLoop ps out'

/-- func.py 129-161 `sig_union` up to the order of the parameters: `params` are the different parameters of the
functions in the order in which the set of them is gone through -/
def sigUnion (params : List Param) : Except PyErr (List Param) := unionLoop params params

/-- the order of `inspect` kinds -/
def Kind.rank : Kind → Nat
  | .positionalOnly => 0
  | .positionalOrKeyword => 1
  | .varPositional => 2
  | .keywordOnly => 3
  | .varKeyword => 4

/-- func.py 105-125 `paramsort`: by kind, the optional ones at the end of each kind -/
def paramsort (ps : List Param) : List Param :=
  [Kind.positionalOnly, .positionalOrKeyword, .varPositional, .keywordOnly, .varKeyword].flatMap (fun k =>
    (ps.filter (fun p => decide (p.kind = k) && notOptional p)) ++
    (ps.filter (fun p => decide (p.kind = k) && !notOptional p)))

end Verif.Query
