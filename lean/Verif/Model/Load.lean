/-
Model of lazy loading: `Data.load`, `load_all`, `__getattribute__`, `__getitem__`, `unloaded`, `keys`,
`__contains__`, `__len__` in `pdr/pdr.py` 531-650 and 1128-1206.

The loaders themselves are an arbitrary oracle: what the k-th request for an object gives may depend on k
and on the object's name in any way (files may change between requests). Objects are taken not to overwrite
the attributes pdr itself uses (`index`, `metadata`, ...).
-/
import Verif.Model.Py

namespace Verif.Load
open Verif.Py

/-- what a request to a loader gives -/
inductive Outcome (V : Type) where
  /-- the loader returned None -/
  | nothing
  /-- the loader returned a mapping from object names to values; `none` is Python's None -/
  | objs (l : List (Str × Option V))
  /-- the loader returned something else (PDS4: the object itself) -/
  | direct (v : Option V)
  /-- an exception -/
  | fails (e : PyErr)
  /-- KeyboardInterrupt -/
  | interrupt

/-- which kind of product this is: with a PDS3 label, with a PDS4 label, or a FITS or image file on its own -/
inductive Standard where
  | pds3 | pds4 | primary
  deriving DecidableEq

/-- The surroundings. `builtin`: names of attributes and methods that are not data objects (the rest of
`dir(self)`). `target k name`: is a file found for the object at time `k`. `ask k name`: what its loader gives.
`meta name`: what `metaget_` gives. -/
structure Env (V : Type) where
  standard : Standard
  debug : Bool
  builtin : Str → Bool
  target : Nat → Str → Bool
  ask : Nat → Str → Outcome V
  metaget : Str → Option V

/-- A `Data` object: the list of object names, the values set so far (`some none` is an attribute that
is None), the objects whose file is known (`file_mapping`), the number of loader requests made and of warnings given. -/
structure State (V : Type) where
  index : List Str
  attrs : Str → Option (Option V)
  mapped : List Str
  asked : Nat
  warned : Nat

variable {V : Type}

/-- how a call ends -/
inductive Res where
  | ok
  | err (e : PyErr)
  | interrupt
  deriving DecidableEq

/-- `name in dir(self)` -/
def loaded (e : Env V) (s : State V) (name : Str) : Bool := e.builtin name || (s.attrs name).isSome

/-- pdr.py 531-533 `unloaded` -/
def unloaded (e : Env V) (s : State V) : List Str := s.index.filter (fun n => !loaded e s n)

/-- `setattr(self, name, v)` -/
def setAttr (s : State V) (name : Str) (v : Option V) : State V :=
  { s with attrs := fun n => if n = name then some v else s.attrs n }

/-- pdr.py 602-608 `_add_loaded_objects` -/
def addObjs (s : State V) : List (Str × Option V) → State V
  | [] => s
  | (_, none) :: rest => addObjs s rest
  | (k, some v) :: rest =>
    let s' := setAttr s k (some v)
    addObjs (if k ∈ s.index then s' else { s' with index := s'.index ++ [k] }) rest

/-- a loader request was made -/
def tick (s : State V) : State V := { s with asked := s.asked + 1 }

/-- a warning and the metadata value instead of the object (pdr.py 600, 631-632) -/
def fallBack (e : Env V) (s : State V) (name : Str) : State V :=
  setAttr { s with warned := s.warned + 1 } name (e.metaget name)

/-- pdr.py 574-600: the loader is called, everything but KeyboardInterrupt is caught -/
def loadPds3 (e : Env V) (s : State V) (name : Str) : State V × Res :=
  match e.ask s.asked name with
  | .nothing => (tick s, .ok)
  | .objs l => (addObjs (tick s) l, .ok)
  | .direct _ => (fallBack e (tick s) name, .ok)
  | .fails _ => (fallBack e (tick s) name, .ok)
  | .interrupt => (tick s, .interrupt)

/-- pdr.py 569-573, 622-632: find the file first; `_file_not_found` otherwise -/
def locateThenLoad (e : Env V) (s : State V) (name : Str) : State V × Res :=
  if name ∈ s.mapped then loadPds3 e s name
  else if e.target s.asked name then loadPds3 e { s with mapped := name :: s.mapped } name
  else if e.debug then (s, .err .fileNotFound)
  else (fallBack e s name, .ok)

/-- pdr.py 547-568: FITS files, images and PDS4 products; nothing is caught. `self._add_loaded_objects(None)`
fails. -/
def loadOther (e : Env V) (s : State V) (name : Str) : State V × Res :=
  match e.ask s.asked name with
  | .nothing => (tick s, .err .attributeError)
  | .objs l => (addObjs (tick s) l, .ok)
  | .direct v => if e.standard = .pds4 then (setAttr (tick s) name v, .ok) else (tick s, .err .attributeError)
  | .fails x => (tick s, .err x)
  | .interrupt => (tick s, .interrupt)

/-- pdr.py 535-600 `load` for a name other than "all" -/
def load (e : Env V) (s : State V) (name : Str) (reload : Bool) : State V × Res :=
  if name ∉ s.index then (s, .err .keyError)
  else if loaded e s name = true ∧ reload = false then (s, .err .alreadyLoaded)
  else if e.standard = .pds3 then locateThenLoad e s name
  else loadOther e s name

/-- `re.match` of `DATA_SET_MAP_PROJECT.*|.*_DESC$|.*DESCRIPTION(_[0-9]*)?$` (loaders/dispatch.py
`OBJECTS_IGNORED_BY_DEFAULT`), for names without line breaks -/
def ignored (name : Str) : Bool :=
  startsWith name c!"DATA_SET_MAP_PROJECT" || endsWith name c!"_DESC" || endsWith name c!"DESCRIPTION" ||
  endsWith (name.reverse.dropWhile (fun c => '0' ≤ c && c ≤ '9')).reverse c!"DESCRIPTION_"

/-- pdr.py 610-620 `load_all`, from position `i` of the live name list on: `LoadAll e i s s' r` if it ends in
state `s'` with `r`. No derivation exists for a run that never ends. Names equal to "all" are not modelled. -/
inductive LoadAll (e : Env V) : Nat → State V → State V → Res → Prop
  | done {i s} : s.index.length ≤ i → LoadAll e i s s .ok
  | skip {i s s' r name} : s.index[i]? = some name → ignored name = true → LoadAll e (i + 1) s s' r →
      LoadAll e i s s' r
  | next {i s s1 s' r r1 name} : s.index[i]? = some name → ignored name = false → load e s name false = (s1, r1) →
      (r1 = .ok ∨ r1 = .err .alreadyLoaded) → LoadAll e (i + 1) s1 s' r → LoadAll e i s s' r
  | stop {i s s1 r1 name} : s.index[i]? = some name → ignored name = false → load e s name false = (s1, r1) →
      r1 ≠ .ok → r1 ≠ .err .alreadyLoaded → LoadAll e i s s1 r1

/-- what `data[name]` gives -/
inductive Got (V : Type) where
  /-- an internal attribute or method -/
  | internal
  | value (v : Option V)
  | err (e : PyErr)
  | interrupt

/-- pdr.py 1128-1139 `__getattribute__` and 1166-1174 `__getitem__` (without its deprecation warning) -/
def get (e : Env V) (s : State V) (name : Str) : State V × Got V :=
  if e.builtin name then (s, .internal)
  else match s.attrs name with
    | some v => (s, .value v)
    | none =>
      if name ∉ s.index then (s, .err .attributeError)
      else
        match load e s name false with
        | (s', .ok) => (s', match s'.attrs name with
            | some v => .value v
            | none => .err .attributeError)
        | (s', .err x) => (s', .err x)
        | (s', .interrupt) => (s', .interrupt)

/-- `del data.NAME` (also pdr.py 1126, `dump_browse` with `purge`) -/
def del (s : State V) (name : Str) : State V := { s with attrs := fun n => if n = name then none else s.attrs n }

/-- what a user can do -/
inductive Op where
  | load (name : Str) (reload : Bool)
  | get (name : Str)
  | del (name : Str)
  | all

/-- one operation of the user -/
inductive Step (e : Env V) : State V → Op → State V → Prop
  | load {s name reload} : Step e s (.load name reload) (load e s name reload).1
  | get {s name} : Step e s (.get name) (get e s name).1
  | del {s name} : Step e s (.del name) (del s name)
  | all {s s' r} : LoadAll e 0 s s' r → Step e s .all s'

/-- any history of operations -/
inductive Run (e : Env V) : State V → List Op → State V → Prop
  | nil {s} : Run e s [] s
  | cons {s s1 s2 o os} : Step e s o s1 → Run e s1 os s2 → Run e s (o :: os) s2

end Verif.Load
