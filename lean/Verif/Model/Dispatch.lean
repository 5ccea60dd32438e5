/-
Model of the choice of a loader: `pdr/loaders/dispatch.py`, and `is_trivial`,
`looks_like_this_kind_of_file` in `pdr/loaders/utility.py`.
-/
import Verif.Model.Files

namespace Verif.Dispatch
open Verif.Py Verif.Files

/-- the loaders of pdr/loaders/datawrap.py -/
inductive Loader where
  | trivial | label | fits | compressedImage | text | array | table | header | image | tbd
  deriving DecidableEq

/-- utility.py 19-50 -/
def imageExtensions : List Str := [c!".img", c!".rgb"]
/-- utility.py 20 -/
def tableExtensions : List Str := [c!".tab", c!".csv"]
/-- utility.py 21 -/
def textExtensions : List Str := [c!".txt", c!".md"]
/-- utility.py 22 -/
def fitsExtensions : List Str := [c!".fits", c!".fit", c!".fits.gz", c!".fit.gz", c!".fz"]
/-- utility.py 23-50 -/
def desktopExtensions : List Str :=
  [c!".bmp", c!".tif", c!".tiff", c!".jp2", c!".jpf", c!".jpc", c!".jpx", c!".jpg", c!".jpeg", c!".gif", c!".png", c!".webp"]

/-- utility.py 71-76 `looks_like_this_kind_of_file`, on the last component of the path -/
def looksLike (fn : Str) (exts : List Str) : Bool := (suffixes (lower fn)).any (fun x => decide (x ∈ exts))

/-- utility.py 79-97 `is_trivial` -/
def isTrivial (p : Str) : Bool :=
  (contains p c!"TIFF" && !contains p c!"IMAGE" && !contains p c!"DOCUMENT") || contains p c!"STRUCTURE" ||
  contains p c!"PDS_OBJECT"

/-- dispatch.py 35-48 `image_lib_dispatch` -/
def imageLib (file : Str) : Option Loader :=
  if looksLike file fitsExtensions then some .fits
  else if looksLike file desktopExtensions then some .compressedImage
  else none

/-- dispatch.py 51-70 `special_pointer_dispatch` -/
def specialPointer (dataset p : Str) : Option Loader :=
  if contains dataset c!"SLN-L-SP" && contains p c!"SPECTRUM" then some .image
  else if contains dataset c!"SLN-L-SP" && contains p c!"ANCILLARY_AND_SUPPLEMENT_DATA" then some .table
  else none

/-- dispatch.py 101-104 -/
def tableWords : List Str :=
  [c!"TABLE", c!"SPREADSHEET", c!"CONTAINER", c!"SERIES", c!"SPECTRUM", c!"HISTOGRAM", c!"FILE"]

/-- dispatch.py 132-148 `file_extension_to_loader` -/
def byExtension (fn : Str) : Loader :=
  if looksLike fn fitsExtensions then .fits
  else if looksLike fn imageExtensions then .image
  else if looksLike fn textExtensions then .text
  else if looksLike fn tableExtensions then .table
  else if looksLike fn desktopExtensions then .compressedImage
  else .tbd

/-- dispatch.py 105-110 -/
def tableLike (p : Str) : Bool :=
  tableWords.any (contains p) && !tableWords.any (fun w => contains p (w ++ c!"_HEADER")) &&
  !tableWords.any (fun w => contains p (w ++ c!"_NAME")) && !contains p c!"HISTOGRAM_IMAGE"

/-- dispatch.py 90-129: from the words in the name -/
def byName (p file : Str) : Loader :=
  if contains p c!"TEXT" || contains p c!"PDF" || contains p c!"MAP_PROJECTION_CATALOG" || contains p c!"FILENAME" then .text
  else if contains p c!"DESC" then .text
  else if contains p c!"ARRAY" then .array
  else if tableLike p then .table
  else if contains p c!"HEADER" then (if looksLike file fitsExtensions then .fits else .header)
  else if contains p c!"IMAGE" || contains p c!"QUB" || contains p c!"XDR_DOCUMENT" then .image
  else if contains p c!"FILE_NAME" then byExtension p
  else .tbd

/-- dispatch.py 73-129 `pointer_to_loader`. `extra`: one of the instrument-specific rules of
`check_trivial_case` (formats/checkers.py 1022-1144) says the object is not to be loaded. `file`: the name of the
file the object was found in (`_target_path`; there is one by the time this is called). -/
def pointerToLoader (extra : Bool) (dataset p file : Str) : Loader :=
  if isTrivial p || extra then .trivial
  else if p = c!"LABEL" then .label
  else match imageLib file with
    | some l => l
    | none => match specialPointer dataset p with
      | some l => l
      | none => byName p file

/-- pdr.py 428-432: the names of the objects of a PDS3 product (pointers without `^`), without the trivial ones -/
def objectNames (names : List Str) : List Str := names.filter (fun n => !isTrivial n)

end Verif.Dispatch
