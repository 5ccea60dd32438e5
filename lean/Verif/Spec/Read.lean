/-
Specification of reading products from disk: which file a name means, where the label of a product is, and what `pdr.read` relies on.
-/
import Verif.Model.Read
import Verif.Spec.Open
import Verif.Spec.Objects
import Verif.Spec.Label
import Verif.Spec.Metadata
import Verif.Spec.Product
import Verif.Spec.Dispatch

namespace Verif.Read.Spec
open Verif.Py Verif.Pvl Verif.Pvl.Spec Verif.Literal Verif.Files Verif.Files.Spec Verif.Open.Spec

variable {D O : Type}

/-- the names in a directory -/
def entries (fs : FS D) (d : D) : List Str := (fs.listing d).getD []

/-- no names in this directory start or end with a dot -/
def Tidy (fs : FS D) (d : D) : Prop := ∀ n ∈ entries fs d, Ordinary n

/-- a directory has nothing that could be meant by this name -/
def Missing (fs : FS D) (d : D) (f : Str) : Prop := ∀ n ∈ entries fs d, n ≠ f ∧ ¬ Variant f n

/-- what a name means in a directory: that file, or the first in other letters or compressed -/
inductive Named (fs : FS D) (d : D) (f : Str) : Str → Prop
  | exact : f ∈ entries fs d → Named fs d f f
  | variant {pre post : List Str} {n : Str} : f ∉ entries fs d → entries fs d = pre ++ n :: post → Variant f n → (∀ m ∈ pre, ¬ Variant f m) →
      Named fs d f n

/-- what a name means for a list of directories: the first that has something like this -/
def InPaths (fs : FS D) (paths : List D) (f : Str) (q : D × Str) : Prop :=
  ∃ before after, paths = before ++ q.1 :: after ∧ (∀ d ∈ before, Missing fs d f) ∧ Named fs q.1 f q.2

/-- a file name without its last suffix -/
def Base (n base : Str) : Prop :=
  (∃ old, n = base ++ '.' :: old ∧ old ≠ [] ∧ '.' ∉ old ∧ base ≠ []) ∨ ('.' ∉ n ∧ n ≠ [] ∧ base = n)

/-- Where the label of a file is: in it, beside it, or it is the label. -/
inductive LabelOf (w : Disk D) (file : D × Str) : D × Str → Prop
  | attached {base : Str} : ¬ LabelName (w.dirText file.1) file.2 → Base file.2 base →
      (∀ y ∈ [c!".xml", c!".lbl", c!".lblx"], Missing w.fs file.1 (base ++ y)) → LabelOf w file file
  | beside {base n : Str} : ¬ LabelName (w.dirText file.1) file.2 → Base file.2 base → Missing w.fs file.1 (base ++ c!".xml") →
      Named w.fs file.1 (base ++ c!".lbl") n → LabelOf w file (file.1, n)
  | itself : LabelName (w.dirText file.1) file.2 → LabelOf w file file

/-- a value of a pointer with a file name -/
def NamesFile (v : Val) (f : Str) : Prop := v = .str f ∨ (∃ rest, v = .tuple (.str f :: rest)) ∨ ∃ rest, v = .list (.str f :: rest)

/-- the file of an object: the one its pointer names, or else that of the product -/
inductive FileOf (fs : FS D) (paths : List D) (own : D × Str) (v : Val) : D × Str → Prop
  | named {f : Str} {q : D × Str} : NamesFile v f → InPaths fs paths f q → FileOf fs paths own v q
  | own : (∀ f, ¬ NamesFile v f) → v ≠ .tuple [] → v ≠ .list [] → own.2 ∈ entries fs own.1 → FileOf fs paths own v own

/-- the data set the label says the product is from -/
def DataSet (label : MDict Val) (t : Str) : Prop :=
  Meta.Spec.First c!"DATA_SET_ID" label (.leaf (.str t)) ∨ (c!"DATA_SET_ID" ∉ keys label ∧ t = [])

/-- A product with a PDS3 label: its file, its label, and what that says. Labels about compressed files, and labels in which something is
wrong with the bytes before the lines of images, are left out (C79). -/
structure Stored (w : Disk D) (file label : D × Str) (text : Str) (tree : MDict Str) (g : Str → Val) (limit : Int) : Prop where
  tidy : Tidy w.fs file.1
  here : file.2 ∈ entries w.fs file.1
  labelled : LabelOf w file label
  noFits : ¬ FitsName label.2
  noPicture : ¬ PictureName label.2
  noPds4 : ¬ Pds4Name (w.dirText label.1) label.2
  noChangE : ¬ Label.Spec.ChangE (w.dirText label.1 ++ '/' :: label.2)
  noVexMag : ¬ Label.Spec.VexMag (w.dirText label.1 ++ '/' :: label.2)
  ascii : ∀ b ∈ (w.content label).take 20, b < 128
  part : Label.Spec.LabelPart (w.content label) limit (Label.Spec.utf8 text)
  saying : Label.Spec.Says text tree
  values : ∀ s ∈ Pvl.Spec.leaves tree, Label.Spec.Means s (g s)
  once : Product.Spec.Once tree
  compressed : c!"COMPRESSED_FILE" ∉ tree.map Prod.fst ∨ c!"UNCOMPRESSED_FILE" ∉ tree.map Prod.fst
  prefixes : ∀ n ∈ Objects.Spec.objects (mapLeaves g tree), c!"LINE_PREFIX" <:+: n → n ∈ keys tree
  structures : ∀ n ∈ Objects.Spec.objects (mapLeaves g tree), Objects.Spec.IsImage n →
    ∀ b, Objects.Spec.blockFor (mapLeaves g tree) (keys (mapLeaves g tree)) n = some b → (Objects.Spec.structureKeys b).length ≤ 1

/-- The format file with this name is in one of these directories, and this is what it says. -/
def FormatFile (w : Disk D) (paths : List D) (f : Str) (block : MDict Val) : Prop :=
  ∃ (q : D × Str) (text : Str) (tree : MDict Str) (g : Str → Val), InPaths w.fs paths f q ∧
    ¬ Label.Spec.ChangE (w.dirText q.1 ++ '/' :: q.2) ∧ ¬ Label.Spec.VexMag (w.dirText q.1 ++ '/' :: q.2) ∧
    (∀ b ∈ (w.content q).take 20, b < 128) ∧ Label.Spec.LabelPart (w.content q) Label.defaultLimit (Label.Spec.utf8 text) ∧
    Label.Spec.Says text tree ∧ (∀ s ∈ Pvl.Spec.leaves tree, Label.Spec.Means s (g s)) ∧ Product.Spec.Once tree ∧ block = mapLeaves g tree

/-- These are format files. -/
def FormatFiles (w : Disk D) (paths : List D) (files : Product.Spec.Files) : Prop :=
  ∀ v block, files v = some block → ∃ f, v = .str f ∧ FormatFile w paths f block

/-- suffixes of pictures -/
def pictureSuffixes : List Str := [c!".bmp", c!".tif", c!".tiff", c!".jp2", c!".jpf", c!".jpc", c!".jpx", c!".jpg", c!".jpeg", c!".gif", c!".png", c!".webp"]

/-- the object is read as a table -/
def IsTable (name : Str) : Prop :=
  ¬ Dispatch.Spec.HasAny name Dispatch.Spec.textWords ∧ ¬ Dispatch.Spec.Has name c!"ARRAY" ∧
    Dispatch.Spec.HasAny name Dispatch.Spec.tableNames ∧ ¬ Dispatch.Spec.HasAny name Dispatch.Spec.notTables

/-- the object is read as an image -/
def IsImage (name : Str) : Prop :=
  ¬ Dispatch.Spec.HasAny name Dispatch.Spec.textWords ∧ ¬ Dispatch.Spec.Has name c!"ARRAY" ∧
    (Dispatch.Spec.HasAny name Dispatch.Spec.tableNames → Dispatch.Spec.HasAny name Dispatch.Spec.notTables) ∧
    ¬ Dispatch.Spec.Has name c!"HEADER" ∧ Dispatch.Spec.HasAny name Dispatch.Spec.imageWords

/-- What is taken for granted about everything else: the lookups of the user change nothing; the object is not an attribute of pdr and no
special case; other objects do not give values for it. -/
structure Quiet (M : Machine D O) (label : MDict Val) (name : Str) : Prop where
  lookups : ∀ k, ∀ o ∈ M.lookups k, ∀ f, o ≠ .edit f
  noAttribute : M.builtin name = false
  noSpecial : ∀ s : Product.State, s.dict = label → M.special s name = false
  others : ∀ k n objs, n ≠ name → M.other k n = .objs objs → ∀ e ∈ objs, e.1 ≠ name
  noCaret : name.head? ≠ some '^'
  noPrefix : ¬ c!"_LINE_PREFIX_TABLE" <:+ name

/-- an object of a product: its name, the value of its pointer, its file -/
structure Object (w : Disk D) (M : Machine D O) (label : MDict Val) (paths : List D) (own : D × Str) (name : Str) (v : Val) (q : D × Str) : Prop
    extends Quiet M label name where
  pointer : Meta.Spec.First ('^' :: name) label (.leaf v)
  file : FileOf w.fs paths own v q
  shown : ¬ Dispatch.Spec.NeverLoaded name
  noLabel : name ≠ c!"LABEL"
  noDot : '.' ∉ name
  plain : Ordinary q.2
  noFits : ¬ Dispatch.Spec.HasSuffix q.2 [c!".fits", c!".fit", c!".fz"]
  noPicture : ¬ Dispatch.Spec.HasSuffix q.2 pictureSuffixes
  dataSet : ∃ t, DataSet label t ∧ ¬ Dispatch.Spec.Has t c!"SLN-L-SP"

end Verif.Read.Spec
