/-
Model of file lookup: `stem_path`, `check_cases`, `with_extension`, `associate_label_file` in
`pdr/utils.py` 59-114, 182-184, 227-248.

A file system is a map from directories to their entries in the order `iterdir` gives them; names are compared
exactly (a case-sensitive file system). A path is a directory and a name.
-/
import Verif.Model.Py

namespace Verif.Files
open Verif.Py

/-- `name.lstrip('.')` -/
def lstripDot (s : Str) : Str := s.dropWhile (fun c => c == '.')

/-- `Path(name).suffixes` (Python before 3.14): nothing if the name ends with a dot; leading dots do not
count -/
def suffixes (name : Str) : List Str :=
  if endsWith name c!"." then []
  else (splitOn '.' (lstripDot name)).tail.map (fun w => '.' :: w)

/-- utils.py 27 -/
def compressionExtensions : List Str := [c!".gz", c!".bz2", c!".zip"]

/-- utils.py 59-72 `stem_path`, on the name -/
def stem (name : Str) : Str :=
  let head := lower ((splitOn '.' name).headD [])
  let exts := (suffixes name).map lower
  if exts.length = 0 then head
  else if 1 < exts.length ∧ exts.getLastD [] ∈ compressionExtensions then head ++ exts.dropLast.flatten
  else head ++ exts.flatten

/-- the entries of each directory; none if there is no such directory -/
structure FS (D : Type) where
  listing : D → Option (List Str)

variable {D : Type}

/-- `path.exists()` -/
def FS.exists (fs : FS D) (p : D × Str) : Bool := ((fs.listing p.1).getD []).contains p.2

/-- utils.py 95-100: the entries that match loosely, in directory order -/
def matching (fs : FS D) (p : D × Str) : List Str :=
  ((fs.listing p.1).getD []).filter (fun n => stem n == lower p.2)

/-- utils.py 75-114 `check_cases` without `skip`: the path found and whether a warning is given. A missing
parent directory has no entries (93-94). -/
def checkCases (fs : FS D) : List (D × Str) → Except PyErr ((D × Str) × Bool)
  | [] => .error .fileNotFound
  | p :: ps =>
    if fs.exists p then .ok (p, false)
    else match matching fs p with
      | [] => checkCases fs ps
      | m :: ms => .ok ((p.1, m), decide (ms ≠ []))

/-- pdr.py 950-959 `get_absolute_paths`: every file name in every search path, search paths in order (pdr.py 262:
the product's own directory comes first). Relative file names without directories. -/
def candidates (searchPaths : List D) (files : List Str) : List (D × Str) :=
  searchPaths.flatMap (fun d => files.map (fun f => (d, f)))

/-- utils.py 75-92 with `skip`: the first candidate, whether or not it exists -/
def checkCasesSkip (ps : List (D × Str)) : Except PyErr (D × Str) :=
  match ps with
  | [] => .error .fileNotFound
  | p :: _ => .ok p

/-- `Path(name).with_suffix(ext)` (utils.py 182-184): replaces everything from the last dot on, unless that dot
is the first or last character -/
def withSuffix (name ext : Str) : Str :=
  let r := name.reverse
  let tail := r.takeWhile (fun c => c != '.')
  let before := r.dropWhile (fun c => c != '.')
  if tail = [] ∨ before.length ≤ 1 then name ++ ext
  else (before.drop 1).reverse ++ ext

/-- utility.py 17 -/
def labelExtensions : List Str := [c!".xml", c!".lbl", c!".lblx"]

/-- utility.py 18 -/
def changeExtensions : List Str := [c!".2bl", c!".2al", c!".2cl", c!".01l", c!".3bl", c!".3al", c!".3cl"]

/-- utils.py 243-248: try the label extensions in order -/
def tryExtensions (fs : FS D) (p : D × Str) : List Str → Option (D × Str)
  | [] => none
  | x :: xs =>
    match checkCases fs [(p.1, withSuffix p.2 x)] with
    | .ok (q, _) => some q
    | .error _ => tryExtensions fs p xs

/-- utils.py 227-248 `associate_label_file`; `text` is the whole data file name as a string -/
def labelFor (fs : FS D) (text : Str) (p : D × Str) (label : Option (D × Str)) (skip : Bool) :
    Except PyErr (Option (D × Str)) :=
  match label with
  | some l => if skip then .ok (some l) else (checkCases fs [l]).map (fun r => some r.1)
  | none =>
    if labelExtensions.any (endsWith (lower text)) ||
        ([c!"ce1", c!"ce2", c!"ce3", c!"ce4", c!"ce5", c!"ce6"].any (contains (lower text)) &&
          changeExtensions.any (endsWith (lower text))) then
      (checkCases fs [p]).map (fun r => some r.1)
    else .ok (tryExtensions fs p labelExtensions)

end Verif.Files
