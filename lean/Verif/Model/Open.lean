/-
Model of opening a product: the first part of `Data.__init__` (`pdr/pdr.py` 233-304), `check_primary_fmt` (`pdr/utils.py`
251-278), and of finding the file of an object: `_object_to_filename`, `_check_compressed_file_pointer`, `_target_path`
(`pdr/pdr.py` 445-528). Files are looked up as in Model/Files.
-/
import Verif.Model.Files

namespace Verif.Open
open Verif.Py Verif.Files

/-- what `PIL.Image.open` finds: a format, no picture (UnidentifiedImageError), or another error -/
inductive Pil
  | format (name : Str)
  | unidentified
  | fails (e : PyErr)

/-- The surroundings: the file system, the absolute path of a directory as text, what pillow makes of a file. -/
structure World (D : Type) where
  fs : FS D
  dirText : D → Str
  pil : D × Str → Pil

variable {D : Type}

/-- `str(path)` -/
def text (w : World D) (p : D × Str) : Str := w.dirText p.1 ++ '/' :: p.2

/-- pdr.py 235-236: `re.match("(?i)^(?:https?|ftp):", fn)` (letter case of ASCII only) -/
def isUrl (s : Str) : Bool :=
  startsWith (lower s) c!"http:" || startsWith (lower s) c!"https:" || startsWith (lower s) c!"ftp:"

/-- utility.py 22 -/
def fitsExtensions : List Str := [c!".fits", c!".fit", c!".fits.gz", c!".fit.gz", c!".fz"]

/-- utility.py 23-38, 50 -/
def pictureExtensions : List Str :=
  [c!".bmp", c!".tif", c!".tiff", c!".jp2", c!".jpf", c!".jpc", c!".jpx", c!".jpg", c!".jpeg", c!".gif", c!".png", c!".webp"]

/-- utility.py 40-49 -/
def pictureStandards : List Str :=
  [c!"JPEG2000", c!"JPEG", c!"MPO", c!"WEBP", c!"PNG", c!"TIFF", c!"GIF", c!"BMP"]

/-- how a product is read -/
inductive Standard
  | fits
  | picture (format : Str)
  | pds4
  | pds3
  deriving DecidableEq

/-- utils.py 251-278 `check_primary_fmt`, utility.py 71-76 `looks_like_this_kind_of_file`: any suffix of the file name counts -/
def primaryFormat (w : World D) (p : D × Str) : Except PyErr (Option Standard) :=
  if fitsExtensions.any (endsWith (lower (text w p))) then .ok (some .fits)
  else if (suffixes (lower p.2)).any (fun x => pictureExtensions.contains x) then
    match w.pil p with
    | .format f => .ok (if f ∈ pictureStandards then some (.picture f) else none)
    | .unidentified => .ok none
    | .fails e => .error e
  else .ok none

/-- pdr.py 294-299 -/
def isPds4Label (t : Str) : Bool :=
  endsWith t c!".xml" || endsWith t c!".lblx" ||
    (contains t c!"CE" && [c!".2BL", c!".2AL", c!".2CL", c!".01L"].any (endsWith t))

/-- an opened product: file, label and how it is read -/
structure Opened (D : Type) where
  file : D × Str
  label : Option (D × Str)
  standard : Standard

/-- pdr.py 281-304: how it is read. (The metadata are not read here.) -/
def standardFor (w : World D) (file : D × Str) (label : Option (D × Str)) : Except PyErr Standard :=
  (primaryFormat w (label.getD file)).map (fun o =>
    match o, label with
    | some s, _ => s
    | none, some l => if isPds4Label (text w l) then .pds4 else .pds3
    | none, none => .pds3)

/-- pdr.py 243: the file -/
def fileFor (w : World D) (p : D × Str) (skip : Bool) : Except PyErr (D × Str) :=
  if skip then .ok p else (checkCases w.fs [p]).map (·.1)

/-- pdr.py 233-304: `given` is the file name as it was given, if it was text; `p` the path it stands for. In 294-299, `str(None)` ends in none of
the extensions. -/
def openProduct (w : World D) (given : Option Str) (p : D × Str) (label : Option (D × Str)) (skip : Bool) : Except PyErr (Opened D) :=
  if (given.map isUrl).getD false then .error .valueError
  else
    (fileFor w p skip).bind (fun file =>
      (labelFor w.fs (text w file) file label skip).bind (fun l =>
        (standardFor w file l).map (fun s => { file := file, label := l, standard := s })))

/-! ### the files of objects -/

/-- the value of a pointer in a PDS3 label; `other`: a number, a set, None, ... -/
inductive Pointer
  | text (s : Str)
  | seq (l : List Pointer)
  | other

/-- pdr.py 462-468 (a sequence without members is an IndexError) -/
def pointerFiles (paths : List D) (own : D × Str) : Pointer → Except PyErr (List (D × Str))
  | .text s => .ok (candidates paths [s])
  | .seq [] => .error .indexError
  | .seq (.text s :: _) => .ok (candidates paths [s])
  | .seq (_ :: _) => .ok [own]
  | .other => .ok [own]

/-- What the label says about an object's file. `special`: file names of a special case; `comp`: the object is described in UNCOMPRESSED_FILE
and both that and COMPRESSED_FILE are there: their FILE_NAMEs, if any, in the order in which a set of the two
keywords happens to be gone through (a value may be one name or several). -/
structure Hints where
  special : Option (List Str) := none
  comp : Option (List (List Str)) := none
  pointer : Pointer := .other

/-- pdr.py 445-468 `_object_to_filename`, 470-495 `_check_compressed_file_pointer` -/
def objectFiles (paths : List D) (own : D × Str) (h : Hints) : Except PyErr (List (D × Str)) :=
  match h.special with
  | some fs => .ok (candidates paths fs)
  | none => match h.comp with
    | some blocks => .ok (blocks.flatMap (fun names => candidates paths names))
    | none => pointerFiles paths own h.pointer

/-- pdr.py 497-528 `_target_path` (`cached`, not `raise_missing`) for one object: the file known by now, and the answer. -/
def targetPath (fs : FS D) (paths : List D) (own : D × Str) (h : Hints) (known : Option (D × Str)) :
    Except PyErr (Option (D × Str) × Option (D × Str)) :=
  match known with
  | some p => .ok (some p, some p)
  | none => (objectFiles paths own h).bind (fun cs =>
    match checkCases fs cs with
    | .ok (p, _) => .ok (some p, some p)
    | .error .fileNotFound => .ok (none, none)
    | .error e => .error e)

end Verif.Open
