/-
Model of metadata lookup: `Metadata` in `pdr/pdr.py` 82-208 and 1211-1233.
-/
import Verif.Model.MultiDict

namespace Verif.Meta
open Verif.Py Verif.Pvl

/-- What is known about Python values here. `isNone`: is a label value `None`. `hashable`, `key`: can a
default be a key of a memo table, and the class of values that count as the same key (`1`, `1.0` and
`True` are the same key). -/
structure Env (α D K : Type) where
  isNone : α → Bool
  hashable : D → Bool
  key : D → K

/-- A `Metadata` object: the mapping, the parameter list its `fieldcounts` are made from (pdr.py 99) and
the two memo tables (107-109). -/
structure State (α D K : Type) where
  dict : MDict α
  params : List Str
  memo : List ((Str × K) × (Tree α ⊕ D)) := []
  blocks : List (Str × MDict α) := []

variable {α D K : Type} [DecidableEq K]

/-- pdr.py 1213-1216 `metaget_interior` -/
def interior (e : Env α D K) (dict : MDict α) (text : Str) (d : D) : Tree α ⊕ D :=
  match digValue text dict with
  | none => .inr d
  | some (.leaf a) => if e.isNone a then .inr d else .inl (.leaf a)
  | some (.node kids) => .inl (.node kids)

/-- pdr.py 1226-1231 `metablock_interior`: the whole mapping if the first match is not a mapping -/
def blockInterior (dict : MDict α) (text : Str) : MDict α :=
  match digValue text dict with
  | some (.node kids) => kids
  | _ => dict

/-- look up a memo table -/
def recall {κ ν : Type} [DecidableEq κ] (k : κ) : List (κ × ν) → Option ν
  | [] => none
  | (k', v) :: rest => if k' = k then some v else recall k rest

/-- pdr.py 99, 107-109: a new object -/
def refresh (s : State α D K) : State α D K := { s with memo := [], blocks := [] }

/-- pdr.py 111-135 `metaget`: state afterwards, answer, warned or not. `functools.cache` raises TypeError
for an unhashable default. -/
def metaget (e : Env α D K) (s : State α D K) (text : Str) (d : D) (warn : Bool) :
    State α D K × Except PyErr (Tree α ⊕ D) × Bool :=
  if s.params.count text = 0 then (s, .ok (.inr d), false)
  else
    let w := decide (1 < s.params.count text) && warn
    if e.hashable d = false then (s, .error .typeError, w)
    else match recall (text, e.key d) s.memo with
      | some v => (s, .ok v, w)
      | none => ({ s with memo := ((text, e.key d), interior e s.dict text d) :: s.memo },
          .ok (interior e s.dict text d), w)

/-- pdr.py 153-178 `metablock` -/
def metablock (s : State α D K) (text : Str) (warn : Bool) : State α D K × Option (MDict α) × Bool :=
  if s.params.count text = 0 then (s, none, false)
  else
    let w := decide (1 < s.params.count text) && warn
    match recall text s.blocks with
    | some v => (s, some v, w)
    | none => ({ s with blocks := (text, blockInterior s.dict text) :: s.blocks },
        some (blockInterior s.dict text), w)

/-- What can happen to a `Metadata` object: lookups, changes of the mapping by the user, and
`refresh_cache` (also called by `Data.load_metadata_changes`, pdr.py 329-333). -/
inductive Op (α D : Type) where
  | get (text : Str) (d : D) (warn : Bool)
  | block (text : Str) (warn : Bool)
  | edit (dict : MDict α)
  | refresh

/-- the state after an operation -/
def step (e : Env α D K) (s : State α D K) : Op α D → State α D K
  | .get t d w => (metaget e s t d w).1
  | .block t w => (metablock s t w).1
  | .edit dict => { s with dict := dict }
  | .refresh => refresh s

/-- the state after a history -/
def run (e : Env α D K) (s : State α D K) (ops : List (Op α D)) : State α D K := ops.foldl (step e) s

/-- pdr.py 184-197 `_init_identifiers`: `show` is `str` on tuples and sets and nothing otherwise -/
def identifiers (e : Env α D K) (s : State α D K) (empty : D) (shown : Tree α ⊕ D → Tree α ⊕ D)
    (fields : List Str) : List (Str × Except PyErr (Tree α ⊕ D)) :=
  match fields with
  | [] => []
  | f :: fs =>
    let r := metaget e s f empty false
    (f, r.2.1.map shown) :: identifiers e r.1 empty shown fs

end Verif.Meta
