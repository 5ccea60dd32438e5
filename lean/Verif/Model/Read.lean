/-
Model of `pdr.read` for products on disk with a PDS3 label, as a whole: opening the product (`pdr/pdr.py` 217-325), listing its objects
(410-444), looking for the file of an object (445-528), choosing a reader (`pdr/loaders/dispatch.py`) and calling it when the object is
asked for (`Data.load`, `pdr/pdr.py` 535-600). It composes the models of these parts: Open, Files, Label, Objects, Metadata, Dispatch, Load, Product
and ProductText.

Simplifications: the files do not change; special cases, tables in the lines of images, products whose label speaks of compressed files,
and readers other than those of tables and images are taken to do anything (`Machine.other`).
-/
import Verif.Model.Open
import Verif.Model.Load
import Verif.Model.ProductText

namespace Verif.Read
open Verif.Py Verif.Pvl Verif.Literal

/-- what a user gets: a binary table, a text table, an image, a value of the label (pdr.py 600), or something else -/
inductive Obj (O : Type) where
  | table (columns : List (Str × BitTable.BColumn))
  | text (columns : List (Str × Ascii.Cells))
  | image (a : Image.Arr ImageFile.Elem)
  | inLabel (v : Pvl.Tree Val)
  | other (o : O)

/-- The disk: its directories, and what `decompress` gives of a file (utils.py 160-180), which for compressed files is not a file of the
operating system. -/
structure Disk (D : Type) extends Open.World D where
  content : D × Str → Bytes
  compressed : D × Str → Bool

/-- Everything else: how characters and floating point numbers are represented, what pandas does, which attributes `Data` objects have
(`dir`), the metadata lookups made before the loader is asked for the k-th time, which objects are special cases (formats/checkers.py;
C100), where else format files are looked for (queries.py 860-867), and what is done in the cases that are left out. -/
structure Machine (D O : Type) where
  gb : Bool → Bytes → Option Str
  cp500 : UInt8 → Char
  vax32 : Nat → Option ℚ
  vax : ImageFile.Elem → ImageFile.Elem
  pandas : Ascii.Pandas
  decode : Bytes → Str
  ids : BitTable.Ids
  builtin : Str → Bool
  debug : Bool
  lookups : Nat → List (Meta.Op Val Locate.Val)
  special : Product.State → Str → Bool
  around : D × Str → List D
  prefixStart : Except PyErr Nat
  other : Nat → Str → Load.Outcome (Obj O)
  otherFile : Nat → Str → Bool

/-- an opened product: its file, the directories that are searched, its metadata and the tables in the lines of its images -/
structure Data (D : Type) where
  file : D × Str
  paths : List D
  state : Product.State
  interleaved : List Str

variable {D O : Type}

/-- pdr.py 464: the value of a pointer, as far as files go -/
def toPointer : Val → Open.Pointer
  | .str s => .text s
  | .tuple xs => .seq (xs.map item)
  | .list xs => .seq (xs.map item)
  | _ => .other
where
  /-- pdr.py 465: only texts matter -/
  item : Val → Open.Pointer
    | .str s => .text s
    | _ => .other

/-- pdr.py 463: `self.metaget_(pointerize(object_name))`; a block or None is no file name -/
def pointerOf (s : Product.State) (name : Str) : Open.Pointer :=
  match (Meta.metaget Product.env s (pointerize name) .none false).2.1 with
  | .ok (.inl (.leaf v)) => toPointer v
  | _ => .other

/-- pdr.py 445-495: what the label says about the file of an object; labels with COMPRESSED_FILE and UNCOMPRESSED_FILE are left out -/
def hints (s : Product.State) (name : Str) : Option Open.Hints :=
  if (s.dict.map Prod.fst).contains c!"COMPRESSED_FILE" && (s.dict.map Prod.fst).contains c!"UNCOMPRESSED_FILE" then none
  else some { pointer := pointerOf s name }

/-- pdr.py 497-528 `_target_path`: the file of an object -/
def fileOf (w : Disk D) (d : Data D) (s : Product.State) (name : Str) : Option (Except PyErr (Option (D × Str))) :=
  (hints s name).map (fun h => (Open.targetPath w.fs d.paths d.file h none).map Prod.snd)

/-- queries.py 846-875 `load_format_file`: the format file in the directories that are searched, or else in the directories around the
file of the object, read as a label -/
def formatFile (w : Disk D) (M : Machine D O) (paths : List D) (q : D × Str) : Product.Files
  | .str f => match Files.checkCases w.fs (Files.candidates paths [f] ++ (M.around q).map (fun dir => (dir, f))) with
    | .error _ => none
    | .ok (p, _) => match Label.readPvl M.gb (Open.text w.toWorld p) (w.content p) true Label.defaultLimit true with
      | .error _ => none
      | .ok (dict, _) => some dict
  | _ => none

/-- table.py 73-110 with datawrap.py 106-119 `ReadTable`: binary and text tables and spreadsheets -/
def tableObject (w : Disk D) (M : Machine D O) (d : Data D) (fuel : Nat) (s : Product.State) (name : Str) (q : D × Str) :
    Option (Load.Outcome (Obj O)) :=
  let src : Table.Source := ⟨w.compressed q, w.content q, M.cp500, M.vax32, M.pandas.R, M.pandas.R'⟩
  let files := formatFile w M d.paths q
  let text := M.decode (w.content q)
  match Product.table M.ids files fuel src s name with
  | some (.error e) => some (.fails e)
  | some (.ok (some out)) => some (.objs [(name, some (.table out))])
  | some (.ok none) => (Product.textTable M.pandas M.ids files fuel text s name).map (fun r => match r with
    | .error e => .fails e
    | .ok out => .objs [(name, out.map .text)])
  | none => (Product.spreadsheet M.pandas files fuel text s name).map (fun r => match r with
    | .error e => .fails e
    | .ok out => .objs [(name, some (.text out))])

/-- datawrap.py 77-103 `ReadImage` -/
def imageObject (w : Disk D) (M : Machine D O) (s : Product.State) (name : Str) (q : D × Str) : Option (Load.Outcome (Obj O)) :=
  (Product.image ⟨w.compressed q, w.content q, M.vax⟩ s name).map (fun r => match r with
    | .error e => .fails e
    | .ok out => .objs [(name, out.map .image)])

/-- pdr.py 189-197: DATA_SET_ID of the label (dispatch.py 58, 64); values that are not texts are left out -/
def dataSet (s : Product.State) : Option Str :=
  match (Meta.metaget Product.env s c!"DATA_SET_ID" (.str []) false).2.1 with
  | .ok (.inl (.leaf (.str t))) => some t
  | .ok (.inr _) => some []
  | _ => none

/-- pdr.py 807-854 `load_from_pointer`: the reader for the object, called for its file -/
def readObject (w : Disk D) (M : Machine D O) (d : Data D) (fuel : Nat) (s : Product.State) (name : Str) (q : D × Str) :
    Option (Load.Outcome (Obj O)) :=
  (dataSet s).bind (fun ds => match Dispatch.pointerToLoader false ds name q.2 with
    | .table => tableObject w M d fuel s name q
    | .image => imageObject w M s name q
    | _ => none)

/-- the metadata when the loader is asked for the k-th time (pdr.py 574) -/
def stateAt (M : Machine D O) (d : Data D) (k : Nat) : Product.State := Meta.run Product.env d.state (M.lookups k)

/-- pdr.py 574-575: what asking for an object gives -/
def ask (w : Disk D) (M : Machine D O) (d : Data D) (fuel k : Nat) (name : Str) : Load.Outcome (Obj O) :=
  let s := stateAt M d k
  if M.special s name || d.interleaved.contains name then M.other k name
  else match fileOf w d s name with
    | some (.ok (some q)) => (readObject w M d fuel s name q).getD (M.other k name)
    | some (.ok none) => .fails .fileNotFound
    | some (.error e) => .fails e
    | none => M.other k name

/-- pdr.py 569-573: is there a file -/
def found (w : Disk D) (M : Machine D O) (d : Data D) (k : Nat) (name : Str) : Bool :=
  let s := stateAt M d k
  if M.special s name then M.otherFile k name
  else match fileOf w d s name with
    | some (.ok (some _)) => true
    | some _ => false
    | none => M.otherFile k name

/-- pdr.py 600: `self.metaget_(name)` -/
def inLabel (d : Data D) (name : Str) : Option (Obj O) :=
  match (Meta.metaget Product.env d.state name .none false).2.1 with
  | .ok (.inl t) => some (.inLabel t)
  | _ => none

/-- the surroundings of a product (pdr.py 535-650) -/
def env (w : Disk D) (M : Machine D O) (d : Data D) (fuel : Nat) : Load.Env (Obj O) where
  standard := .pds3
  debug := M.debug
  builtin := M.builtin
  target := found w M d
  ask := ask w M d fuel
  metaget := inLabel d

/-- pdr.py 312-315: errors while reading the label -/
def labelError : PyErr → PyErr
  | .unicodeError => .valueError
  | .fileNotFound => .valueError
  | e => e

/-- `pdr.read`: pdr.py 217-325 `Data.__init__` with 762-805 `read_metadata`. `none`: not a product with a PDS3 label. The directories
that are searched are that of the file (262, 350-358) and those that were given. -/
def read (w : Disk D) (M : Machine D O) (given : Option Str) (p : D × Str) (label : Option (D × Str)) (more : List D) (skip : Bool)
    (limit : Int) (strict : Bool) : Except PyErr (Option (Data D × Load.State (Obj O))) :=
  match Open.openProduct w.toWorld given p label skip with
  | .error e => .error e
  | .ok o => if o.standard = .pds3 then
      let target := o.label.getD o.file
      match Product.openLabel M.gb (Open.text w.toWorld target) (w.content target) limit strict with
      | .error e => .error (labelError e)
      | .ok s =>
        let d : Data D := { file := o.file, paths := o.file.1 :: more, state := s, interleaved := [] }
        let E : Objects.Env Val := {
          isEmpty := fun v => match v with | .str [] => true | _ => false
          found := fun n => found w M d 0 n
          start := M.prefixStart }
        match Objects.openPds3 E s.dict s.params with
        | .error e => .error e
        | .ok r => .ok (some ({ d with interleaved := r.interleaved.map Prod.fst },
            { index := r.index, attrs := fun _ => none, mapped := r.mapped, asked := 0, warned := 0 }))
    else .ok none

end Verif.Read
