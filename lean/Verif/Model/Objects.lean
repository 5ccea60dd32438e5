/-
Model of which objects a product has when it is opened: `pdr/pdr.py` 335-444 and 653-687 with 557-574, 714-760,
`pdr/pds4_tools/reader/core.py` 216-309, `pdr/loaders/queries.py` 917-928.
-/
import Verif.Model.Metadata
import Verif.Model.Dispatch
import Verif.Model.Literal

namespace Verif.Objects
open Verif.Py Verif.Pvl

/-! ### PDS4 -/

/-- a child of a file area: its tag, and its `local_identifier` and `name`, if it has them -/
structure Element where
  tag : Str
  localId : Option Str
  name : Option Str
  deriving DecidableEq

/-- a child of the label's root: its tag, the first `file_name` in it, and its children -/
structure Area where
  tag : Str
  file : Option Str
  children : List Element

/-- core.py 272-280: header, array or table -/
inductive Kind | header | array | table
  deriving DecidableEq

/-- core.py 301: `structure_type.upper()` -/
def Kind.upper : Kind → Str
  | .header => c!"HEADER" | .array => c!"ARRAY" | .table => c!"TABLE"

/-- pds4_tools/utils/constants.py 20-24 `PDS4_DATA_FILE_AREAS` -/
def dataAreas : List Str :=
  [c!"File_Area_Observational", c!"File_Area_Observational_Supplemental", c!"File_Area_Ancillary", c!"File_Area_Browse",
   c!"File_Area_Inventory"]

/-- constants.py 28 `PDS4_TABLE_TYPES` -/
def tableTypes : List Str := [c!"Table_Character", c!"Table_Binary", c!"Table_Delimited", c!"Inventory"]

/-- core.py 269-276: what kind of structure this is, if it is one -/
def kindOf (tag : Str) : Option Kind :=
  if contains tag c!"Header" then some .header
  else if contains tag c!"Array" then some .array
  else if tag ∈ tableTypes then some .table
  else none

/-- core.py 252-255: the file areas, one kind after the other -/
def areasOf (label : List Area) : List Area := dataAreas.flatMap (fun t => label.filter (fun a => a.tag = t))

/-- `os.path.join` of two paths (POSIX) -/
def joinPath (dir file : Str) : Str :=
  if startsWith file c!"/" then file
  else if dir = [] ∨ endsWith dir c!"/" then dir ++ file
  else dir ++ c!"/" ++ file

/-- a structure that has been found: its id, its kind, the element and the path of its file -/
structure Found where
  id : Str
  kind : Kind
  element : Element
  path : Str
  deriving DecidableEq

/-- the counters of core.py 245, on from here -/
def bump (k : Kind) (n : Kind → Nat) : Kind → Nat := fun j => if j = k then n j + 1 else n j

/-- general_objects.py 640-654 `Meta_Structure.id` and core.py 295-296: `n` structures of this kind came before -/
def idOf (e : Element) (k : Kind) (n : Nat) : Str :=
  match e.localId with
  | some s => s
  | none => match e.name with
    | some s => s
    | none => k.upper ++ c!"_" ++ natStr n

/-- core.py 263-307: the children of a file area. Simplification: all structures can be created (their labels have the
required keywords). -/
def readChildren (path : Str) : List Element → (Kind → Nat) → List Found × (Kind → Nat)
  | [], n => ([], n)
  | e :: es, n => match kindOf e.tag with
    | none => readChildren path es n
    | some k =>
      let r := readChildren path es (bump k n)
      (⟨idOf e k (n k), k, e, path⟩ :: r.1, r.2)

/-- core.py 257-309: the file areas. `os.path.join` raises TypeError for an area without file name. -/
def readAreas (dir : Str) : List Area → (Kind → Nat) → Except PyErr (List Found)
  | [], _ => .ok []
  | a :: as, n => match a.file with
    | none => .error .typeError
    | some f =>
      let r := readChildren (joinPath dir f) a.children n
      match readAreas dir as r.2 with
      | .error e => .error e
      | .ok more => .ok (r.1 ++ more)

/-- core.py 216-309 `read_structures` -/
def readStructures (dir : Str) (label : List Area) : Except PyErr (List Found) := readAreas dir (areasOf label) (fun _ => 0)

/-- pdr.py 345-346: `id.replace(" ", "_")` -/
def keyOf (id : Str) : Str := id.map (fun c => if c = ' ' then '_' else c)

/-- what a name of a PDS4 product stands for -/
inductive Target
  | label
  | structure (s : Found)
  deriving DecidableEq

/-- a PDS4 product: its names and what they stand for (`_pds4_structures`, the last entry for a name counts) -/
structure Product4 where
  index : List Str
  entries : List (Str × Target)

/-- pdr.py 335-348 `_init_pds4` -/
def openPds4 (dir : Str) (label : List Area) : Except PyErr Product4 :=
  match readStructures dir label with
  | .error e => .error e
  | .ok found =>
    let entries := found.map (fun s => (keyOf s.id, Target.structure s)) ++ [(c!"label", Target.label)]
    .ok ⟨entries.map Prod.fst, entries⟩

/-- pdr.py 723 in `_load_pds4`: `dict[name]`. Simplification: special cases (`check_special_pds4_cases`) and FITS files,
which use other readers for the same structure, are left out. -/
def Product4.get (p : Product4) (name : Str) : Except PyErr Target :=
  match p.entries.reverse.find? (fun e => e.1 = name) with
  | some e => .ok e.2
  | none => .error .keyError

/-! ### PDS3 -/

/-- a character of a word (`\w`; ASCII) -/
def isWord (c : Char) : Bool := c.isAlphanum || c = '_'

/-- pds3.py 29 `STRUCTUREPAT`: `\^(?:(?:\w|_)+_)?STRUCTURE$`, for names without line breaks -/
def structurePointer (key : Str) : Bool :=
  match key with
  | '^' :: t =>
    if t = c!"STRUCTURE" then true
    else endsWith t c!"_STRUCTURE" && decide (c!"_STRUCTURE".length < t.length) && (t.take (t.length - c!"_STRUCTURE".length)).all isWord
  | _ => false

/-- What opening a PDS3 product depends on. `isEmpty a`: is this value the empty text. `found name`: is there a file for the
object. `start`: what the queries for the file and start byte of the object IMAGE give, once its file is known. -/
structure Env (α : Type) where
  isEmpty : α → Bool
  found : Str → Bool
  start : Except PyErr Nat

/-- a PDS3 product: its names, the files that are known (`file_mapping`), and the tables between the lines of images
(`_interleaved_objects`, with their images; the last entry for a name counts) -/
structure Product3 where
  index : List Str
  mapped : List Str
  interleaved : List (Str × Str)

variable {α : Type}

/-- pdr.py 180-182 with 153-178: `metablock_`, from a label and its list of names -/
def blockOf (label : MDict α) (params : List Str) (name : Str) : Option (MDict α) :=
  if params.count name = 0 then none else some (Meta.blockInterior label name)

/-- queries.py 917-928 `standalone_start_byte`: looks for the file of the object, then always for IMAGE -/
def standalone (E : Env α) (mapped : List Str) (name : Str) : List Str × Except PyErr Nat :=
  let mapped := if name ∉ mapped ∧ E.found name then name :: mapped else mapped
  (mapped, if c!"IMAGE" ∈ mapped then E.start else .error .keyError)

/-- pdr.py 383-394: the prefix objects one after the other; were there any? -/
def attach (E : Env α) (image : Str) (at' : Nat) : List Str → Product3 → Bool → Except PyErr (Product3 × Bool)
  | [], p, any => .ok (p, any)
  | pre :: pres, p, any =>
    match standalone E p.mapped pre with
    | (_, .error e) => .error e
    | (mapped, .ok n) =>
      let p := { p with mapped := mapped }
      if n = at' then attach E image at' pres { p with interleaved := p.interleaved ++ [(pre, image)] } true
      else attach E image at' pres p any

/-- pdr.py 399-402: `^LINE_PREFIX_STRUCTURE = ""` (the first of that name) -/
def emptyPrefix (E : Env α) (block : MDict α) : Bool :=
  match block.find? (fun kv => kv.1 = c!"^LINE_PREFIX_STRUCTURE") with
  | some (_, .leaf a) => E.isEmpty a
  | _ => false

/-- pdr.py 405-408 -/
def addPrefix (image : Str) (p : Product3) : Product3 :=
  let name := image ++ c!"_LINE_PREFIX_TABLE"
  { p with interleaved := p.interleaved ++ [(name, image)], index := p.index ++ [name] }

/-- pdr.py 360-408 `_associate_prefix_tables` -/
def associate (E : Env α) (label : MDict α) (params : List Str) (pres : List Str) (image : Str) (p : Product3) : Except PyErr Product3 :=
  match blockOf label params image with
  | none => .ok p
  | some block =>
    let spointers := (block.map Prod.fst).filter structurePointer
    if spointers.length = 0 then .ok p
    else if 1 < spointers.length then .error .notImplemented
    else if pres = [] then .ok (if emptyPrefix E block then p else addPrefix image p)
    else match standalone E p.mapped image with
      | (_, .error e) => .error e
      | (mapped, .ok at') => match attach E image at' pres { p with mapped := mapped } false with
        | .error e => .error e
        | .ok (p, any) => .ok (if any ∨ emptyPrefix E block then p else addPrefix image p)

/-- pdr.py 438-444: the images one after the other -/
def associateAll (E : Env α) (label : MDict α) (params : List Str) (pres : List Str) : List Str → Product3 → Except PyErr Product3
  | [], p => .ok p
  | image :: images, p => match associate E label params pres image p with
    | .error e => .error e
    | .ok p => associateAll E label params pres images p

/-- pdr.py 410-444 `_find_objects` after 806-807 (LABEL is there already), without the instruments of
`check_special_objects`. A label without pointers: `self.pointers` is None (319-325), nothing is added. -/
def openPds3 (E : Env α) (label : MDict α) (params : List Str) : Except PyErr Product3 :=
  let index := c!"LABEL" :: Dispatch.objectNames ((pointers label).map depointerize)
  let pres := index.filter (fun n => contains n c!"LINE_PREFIX" && (blockOf label params n).isNone)
  let images := index.filter (fun n => contains n c!"IMAGE" && !contains n c!"TABLE")
  associateAll E label params pres images ⟨index, [c!"LABEL"], []⟩

/-! ### image files without labels -/

/-- image files: GIF and WebP may have several frames, MPO several pictures (with the types of all of them), others one -/
inductive Format
  | frames
  | mpo (types : List Str)
  | other

/-- pdr.py 684: `re.sub(r'[() ]', '_', type)` -/
def typeName (t : Str) : Str := t.map (fun c => if c = '(' ∨ c = ')' ∨ c = ' ' then '_' else c)

/-- pdr.py 682-685: the pictures from number `i + 1` on -/
def pictureNames : Nat → List Str → List Str
  | _, [] => []
  | i, t :: ts => (typeName t ++ c!"_" ++ natStr (i + 1)) :: pictureNames (i + 1) ts

/-- pdr.py 665-687 `_add_compressed_image_objects`, for `n` frames -/
def frameNames (f : Format) (n : Nat) : Except PyErr (List Str) :=
  if n = 1 then .ok [c!"IMAGE"]
  else match f with
    | .frames => .ok ((List.range n).map (fun i => c!"FRAME_" ++ natStr i))
    | .mpo types => match types with
      | [] => .error .indexError
      | first :: rest => if first ≠ c!"Baseline MP Primary Image" then .error .notImplemented else .ok (c!"IMAGE" :: pictureNames 0 rest)
    | .other => .error .notImplemented

/-- pdr.py 558-574 in `load`: which frame is read for a name; `none`: the one that is open already -/
def frameOf (f : Format) (n : Nat) (name : Str) : Except PyErr (Option Int) :=
  if n = 1 then .ok none
  else match f, decide (name = c!"IMAGE") with
    | .mpo _, true => .ok (some 0)
    | _, _ => match Literal.pyInt ((splitOn '_' name).getLastD []) 10 with
      | some i => .ok (some i)
      | none => .error .valueError

end Verif.Objects
