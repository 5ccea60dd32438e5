/-
Model of FITS files: `handle_fits_file`, `handle_fits_header`, `unpack_fits_headers` in `pdr/loaders/handlers.py`;
`Data._load_primary_fits`, `_init_primary_format`, `_find_fits_header_pds4_id` and the FITS branch of `_load_pds4` in
`pdr/pdr.py`.

What astropy makes of a file is given: for every HDU its name, the cards of its header, its data and where they are.
-/
import Verif.Model.Load
import Verif.Model.Datatypes

namespace Verif.Fits
open Verif.Py

/-! ### headers -/

/-- the value of a card. `undefined`: astropy's `Undefined`; `other`: anything else, with its `str`. -/
inductive CardVal
  | text (s : Str)
  | int (n : Int)
  | real (bits : Nat)
  | bool (b : Bool)
  | undefined
  | other (shown : Str)
  deriving DecidableEq

/-- a card; `bad`: looking at it is a VerifyError -/
inductive Card
  | good (key : Str) (val : CardVal) (com : Str)
  | bad
  deriving DecidableEq

/-- a value in a header of the output; `none` is Python's None -/
inductive Item
  | text (s : Str)
  | int (n : Int)
  | real (bits : Nat)
  | bool (b : Bool)
  | none
  deriving DecidableEq

/-- the MultiDict made of a header -/
abbrev Header := List (Str × Item)

/-- handlers.py 242-249 -/
def itemOf : CardVal → Item
  | .text s => .text s
  | .int n => .int n
  | .real b => .real b
  | .bool b => .bool b
  | .undefined => .none
  | .other s => .text s

/-- handlers.py 223-259 `handle_fits_header`; `none` is VerifyError. (StopIteration is not modelled.) -/
def readHeader (skip : Bool) : List Card → Option Header
  | [] => some []
  | .bad :: cs => if skip then readHeader skip cs else none
  | .good key val com :: cs =>
    let here : Header :=
      if key.length = 0 then []
      else (key, itemOf val) :: (if 0 < com.length then [(key ++ c!"_comment", .text com)] else [])
    (readHeader skip cs).map (fun h => here ++ h)

/-! ### files -/

/-- an HDU: name (`info()`), cards, data (none for a stub), the places of header and data -/
structure Hdu (B : Type) where
  name : Str
  cards : List Card
  body : Option B
  hdrLoc : Int := 0
  datLoc : Int := 0

/-- A file, and the cards of all its HDUs after `verify('silentfix')`, if that works. -/
structure File (B : Type) where
  hdus : List (Hdu B)
  fix : Option (List (List Card)) := none

variable {B : Type}

/-- what is loaded; `empty`: `np.array([])` -/
inductive Obj (B : Type)
  | header (h : Header)
  | body (b : B)
  | empty

/-- handlers.py 84-99: the header of an HDU, mended if necessary -/
def headerOf (f : File B) (i : Nat) (h : Hdu B) : Header :=
  match readHeader false h.cards with
  | some x => x
  | none => match f.fix with
    | none => (readHeader true h.cards).getD []
    | some cs => match readHeader false (cs.getD i []) with
      | some x => x
      | none => (readHeader true (cs.getD i [])).getD []

/-- handlers.py 106-117: the data (columns of tables are not modelled) -/
def bodyOf (h : Hdu B) : Obj B :=
  match h.body with
  | none => .empty
  | some b => .body b

/-- handlers.py 84-118, once the HDU is known -/
def objects (f : File B) (name : Str) (i : Nat) (isHeader : Bool) : Except PyErr (List (Str × Obj B)) :=
  match f.hdus[i]? with
  | none => .error .indexError
  | some h =>
    if isHeader then .ok [(name, .header (headerOf f i h))]
    else .ok [(name ++ c!"_HEADER", .header (headerOf f i h)), (name, bodyOf h)]

/-! ### by start byte -/

/-- handlers.py 24-39 `hdu_byte_index` -/
def byteIndex (f : File B) : List (Int × (Nat × Bool)) :=
  f.hdus.zipIdx.flatMap (fun q => [(q.1.hdrLoc, (q.2, true)), (q.1.datLoc, (q.2, false))])

/-- a dictionary filled in this order: later entries win -/
def lastOf {K A : Type} [DecidableEq K] (d : List (K × A)) (k : K) : Option A :=
  (d.reverse.find? (fun e => e.1 = k)).map (·.2)

/-- handlers.py 46-118 `handle_fits_file` with a start byte -/
def byByte (f : File B) (name : Str) (start : Int) : Except PyErr (List (Str × Obj B)) :=
  match lastOf (byteIndex f) start with
  | none => .error .keyError
  | some (i, isHeader) => objects f name i isHeader

/-! ### FITS files on their own -/

/-- cytoolz `groupby`: keys in the order in which they first appear -/
def keysOf : List Str → List Str
  | [] => []
  | n :: ns => n :: (keysOf ns).filter (fun m => m ≠ n)

/-- … and the positions of each -/
def groups (names : List Str) : List (Str × List Nat) :=
  (keysOf names).map (fun n => (n, (names.zipIdx.filter (fun q => q.1 = n)).map (·.2)))

/-- handlers.py 309-318: the names of a group -/
def listedOf (g : Str × List Nat) : List (Str × Nat) :=
  match g.2 with
  | [i] => [(g.1, i)]
  | is => is.zipIdx.map (fun q => (g.1 ++ c!"_" ++ natStr q.2, q.1))

/-- handlers.py 304-318 `hdumap`, in the order of assignments -/
def hduMap (names : List Str) : List (Str × Nat) := (groups names).flatMap listedOf

/-- handlers.py 292-326 `unpack_fits_headers`: names and headers. `none` is VerifyError: here, headers are not mended. -/
def unpack (f : File B) : Option (List (Str × Header)) :=
  (hduMap (f.hdus.map (·.name))).mapM (fun q =>
    (f.hdus[q.2]?.bind (fun h => readHeader false h.cards)).map (fun x => (q.1, x)))

/-- pdr.py 634-649 `_load_primary_fits`, handlers.py 75-83 -/
def loadPrimary (f : File B) (name : Str) : Except PyErr (List (Str × Obj B)) :=
  match lastOf (hduMap (f.hdus.map (·.name))) name with
  | none => .error .keyError
  | some i => objects f name i (contains name c!"HEADER" && !(f.hdus.map (·.name)).contains name)

/-- what `load` gets -/
def outcome : Except PyErr (List (Str × Obj B)) → Load.Outcome (Obj B)
  | .ok l => .objs (l.map (fun q => (q.1, some q.2)))
  | .error e => .fails e

/-- the surroundings of `load` (Model/Load) for a FITS file that is opened directly -/
def env (f : File B) (debug : Bool) (builtin : Str → Bool) (meta' : Str → Option (Obj B)) : Load.Env (Obj B) where
  standard := .primary
  debug := debug
  builtin := builtin
  target := fun _ _ => true
  ask := fun _ name => outcome (loadPrimary f name)
  metaget := meta'

/-- pdr.py 651-664 `_init_primary_format`: the product as it is opened. `none` is VerifyError. -/
def openPrimary (f : File B) : Option (Load.State (Obj B)) :=
  (unpack f).map (fun entries =>
    { index := entries.map (·.1), attrs := fun _ => none, mapped := [], asked := 0, warned := 0 })

/-! ### FITS files with PDS4 labels -/

/-- a structure of a PDS4 label: the key of `_pds4_structures`, whether it is a header, and its metadata -/
structure Struct where
  key : Str
  isHeader : Bool
  offset : Int
  length : Option Int := none
  name : Option Str := none

/-- pdr.py 689-712 `_find_fits_header_pds4_id` -/
def headerId : List Struct → Int → Option Str
  | [], _ => none
  | s :: ss, start =>
    if s.isHeader = false then headerId ss start
    else match s.length with
      | none => headerId ss start
      | some n =>
        if s.offset + n = start then s.name.map (fun x => x.map (fun c => if c = ' ' then '_' else c))
        else headerId ss start

/-- `result[hid] = result.pop(old)` -/
def rename (old hid : Str) (d : List (Str × Obj B)) : Except PyErr (List (Str × Obj B)) :=
  match d.find? (fun q => q.1 = old) with
  | none => .error .keyError
  | some q =>
    let rest := d.filter (fun q => q.1 ≠ old)
    .ok (if rest.any (fun q => q.1 = hid) then rest.map (fun r => if r.1 = hid then (hid, q.2) else r) else rest ++ [(hid, q.2)])

/-- pdr.py 733-746: the FITS branch of `_load_pds4` -/
def loadPds4 (f : File B) (structs : List Struct) (s : Struct) : Except PyErr (List (Str × Obj B)) :=
  match byByte f s.key s.offset with
  | .error e => .error e
  | .ok result =>
    if s.isHeader then .ok result
    else match headerId structs s.offset with
      | none => .ok result
      | some hid => rename (s.key ++ c!"_HEADER") hid result

end Verif.Fits
