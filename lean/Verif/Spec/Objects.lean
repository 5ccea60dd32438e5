/-
Specification of the objects of a product.
-/
import Verif.Model.Objects

namespace Verif.Objects.Spec
open Verif.Py Verif.Pvl Verif.Objects

/-! ### PDS4 -/

/-- tags of data structures of each kind -/
def HasKind (tag : Str) : Kind → Prop
  | .header => c!"Header" <:+: tag
  | .array => c!"Array" <:+: tag ∧ ¬ c!"Header" <:+: tag
  | .table => (tag = c!"Table_Character" ∨ tag = c!"Table_Binary" ∨ tag = c!"Table_Delimited" ∨ tag = c!"Inventory")

/-- a data structure of the label: its element, its kind and the name of its file -/
structure Described where
  element : Element
  kind : Kind
  file : Str

/-- the data structures of these elements, in order -/
inductive Children (file : Str) : List Element → List Described → Prop
  | nil : Children file [] []
  | skip {e : Element} {es : List Element} {ds : List Described} : (∀ k, ¬ HasKind e.tag k) → Children file es ds → Children file (e :: es) ds
  | data {e : Element} {es : List Element} {ds : List Described} {k : Kind} : HasKind e.tag k → Children file es ds →
      Children file (e :: es) (⟨e, k, file⟩ :: ds)

/-- the data structures of these file areas, in order -/
inductive Areas : List Area → List Described → Prop
  | nil : Areas [] []
  | cons {tag file : Str} {es : List Element} {as : List Area} {ds ds' : List Described} :
      Children file es ds → Areas as ds' → Areas (⟨tag, some file, es⟩ :: as) (ds ++ ds')

/-- the data structures of a label: those of the observational file areas, the supplemental, the ancillary, the browse and
the inventory file areas -/
def Describes (label : List Area) (ds : List Described) : Prop :=
  let only (tag : Str) := label.filter (fun a => a.tag = tag)
  Areas (only c!"File_Area_Observational" ++ only c!"File_Area_Observational_Supplemental" ++ only c!"File_Area_Ancillary" ++
    only c!"File_Area_Browse" ++ only c!"File_Area_Inventory") ds

/-- what kinds are called in made-up names -/
def kindName : Kind → Str
  | .header => c!"HEADER"
  | .array => c!"ARRAY"
  | .table => c!"TABLE"

/-- The name of a structure: its local identifier, or else its name, or else its kind and the number of structures of that
kind before it; spaces become underscores. -/
def nameOf (before : List Described) (d : Described) : Str :=
  let id := (d.element.localId.orElse (fun _ => d.element.name)).getD
    (kindName d.kind ++ c!"_" ++ natStr (before.countP (fun b => b.kind = d.kind)))
  id.map (fun c => if c = ' ' then '_' else c)

/-- the names of all structures -/
def namesOf (ds : List Described) : List Str := ds.zipIdx.map (fun p => nameOf (ds.take p.2) p.1)

/-- where its file is: relative to the directory of the label (paths are those of POSIX) -/
def Located (dir file path : Str) : Prop :=
  (file.head? = some '/' → path = file) ∧
  (file.head? ≠ some '/' → (dir = [] ∨ dir.getLast? = some '/') → path = dir ++ file) ∧
  (file.head? ≠ some '/' → dir ≠ [] → dir.getLast? ≠ some '/' → path = dir ++ '/' :: file)

/-- this is the structure -/
def Found.Is (dir : Str) (d : Described) (s : Found) : Prop :=
  s.element = d.element ∧ s.kind = d.kind ∧ Located dir d.file s.path

/-! ### PDS3 -/

mutual
/-- the keys in a value: if it is a block, its own, then those in the values in it -/
def keysIn {α : Type} : Tree α → List Str
  | .leaf _ => []
  | .node block => block.map Prod.fst ++ keysWithin block
/-- the keys in the values of a block, one after the other -/
def keysWithin {α : Type} : MDict α → List Str
  | [] => []
  | (_, v) :: rest => keysIn v ++ keysWithin rest
end

/-- the keys of a label -/
def keysOf {α : Type} (label : MDict α) : List Str := keysIn (.node label)

mutual
/-- the entries in a value: if it is a block, its own, then those in the values in it -/
def entriesIn {α : Type} : Tree α → List (Str × Tree α)
  | .leaf _ => []
  | .node block => block ++ entriesWithin block
/-- the entries in the values of a block, one after the other -/
def entriesWithin {α : Type} : MDict α → List (Str × Tree α)
  | [] => []
  | (_, v) :: rest => entriesIn v ++ entriesWithin rest
end

/-- The block of an object: the first value with that name, if it is a block, else the whole label; but an object whose name is not
among the parameters of the label has no block. -/
def blockFor {α : Type} (label : MDict α) (params : List Str) (name : Str) : Option (MDict α) :=
  if name ∈ params then
    match (entriesIn (.node label)).find? (fun e => e.1 = name) with
    | some (_, .node block) => some block
    | _ => some label
  else none

/-- pointers that are not shown as objects: TIFF tags, STRUCTUREs and PDS_OBJECTs -/
def Hidden (name : Str) : Prop :=
  (c!"TIFF" <:+: name ∧ ¬ c!"IMAGE" <:+: name ∧ ¬ c!"DOCUMENT" <:+: name) ∨ c!"STRUCTURE" <:+: name ∨ c!"PDS_OBJECT" <:+: name

open Classical in
/-- the objects these keys point to -/
noncomputable def objectsOf : List Str → List Str
  | [] => []
  | ('^' :: name) :: keys => if Hidden name then objectsOf keys else name :: objectsOf keys
  | _ :: keys => objectsOf keys

/-- `^STRUCTURE` or `^SOMETHING_STRUCTURE` -/
def StructureKey (key : Str) : Prop :=
  key = c!"^STRUCTURE" ∨ ∃ w : Str, w ≠ [] ∧ (∀ c ∈ w, c.isAlphanum = true ∨ c = '_') ∧ key = '^' :: (w ++ c!"_STRUCTURE")

open Classical in
/-- the structure pointers of a block -/
noncomputable def structureKeys {α : Type} (block : MDict α) : List Str := (block.map Prod.fst).filter (fun k => decide (StructureKey k))

/-- objects that may be images -/
def IsImage (name : Str) : Prop := c!"IMAGE" <:+: name ∧ ¬ c!"TABLE" <:+: name

open Classical in
/-- those of these objects that may be images -/
noncomputable def imagesOf (names : List Str) : List Str := names.filter (fun n => decide (IsImage n))

/-- the name of the table of what comes before the lines of an image -/
def tableName (image : Str) : Str := image ++ c!"_LINE_PREFIX_TABLE"

/-- the first `^LINE_PREFIX_STRUCTURE` of a block is the empty text -/
def NoPrefix {α : Type} (E : Env α) (block : MDict α) : Prop :=
  ∃ before a after, block = before ++ (c!"^LINE_PREFIX_STRUCTURE", .leaf a) :: after ∧ E.isEmpty a = true ∧
    ∀ kv ∈ before, kv.1 ≠ c!"^LINE_PREFIX_STRUCTURE"

/-- the image's block has one structure pointer, which is for lines of the image -/
def Prefixed {α : Type} (E : Env α) (label : MDict α) (params : List Str) (image : Str) : Prop :=
  ∃ block, blockFor label params image = some block ∧ (structureKeys block).length = 1 ∧ ¬ NoPrefix E block

/-- the names of the objects of a label, in order -/
noncomputable def objects {α : Type} (label : MDict α) : List Str := objectsOf (keysOf label)

/-- objects that may be images, with one structure pointer in their blocks -/
def OneStructure {α : Type} (label : MDict α) (params : List Str) (image : Str) : Prop :=
  ∃ block, blockFor label params image = some block ∧ (structureKeys block).length = 1

open Classical in
/-- the images with one structure pointer -/
noncomputable def structured {α : Type} (label : MDict α) (params : List Str) : List Str :=
  (imagesOf (objects label)).filter (fun i => decide (OneStructure label params i))

open Classical in
/-- objects for what comes before lines that have no block -/
noncomputable def loose {α : Type} (label : MDict α) (params : List Str) : List Str :=
  (objects label).filter (fun n => decide (c!"LINE_PREFIX" <:+: n ∧ blockFor label params n = none))

end Verif.Objects.Spec
