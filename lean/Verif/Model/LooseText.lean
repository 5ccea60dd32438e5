/-
Model of two readers of text tables that do not use what the label says about positions:
`read_table_using_spaces` in `pdr/formats/change.py` 54-98 (Chang'e 4 tables, PDS4) and `afm_table_loader` in
`pdr/formats/phoenix.py` 50-84 (Phoenix AFM tables). pandas 2 is modelled as far as they use it: `read_csv` with a
regular expression as separator (Python engine) and, for AFM tables, the C tokenizer of Model/AsciiTable with
`skiprows` and `nrows`. What pandas makes of the cells of a column is a parameter.
-/
import Verif.Model.AsciiTable
import Verif.Model.Xml

namespace Verif.LooseText
open Verif.Py Verif.Ascii

/-- a column as pandas infers it; texts stay as they are -/
def column (infer : List Str → Inferred) (missing : Str → Bool) (cells : List Str) : Cells :=
  match infer cells with
  | .values c => .values c
  | .mixed vs => .mixed vs
  | .text => .texts (cells.map (fun c => if missing c then none else some c))

/-! ### Chang'e 4 -/

/-- a Group_Field_Character of the label: name and repetitions (change.py 83-84). The fields in the group are not
looked at. -/
structure Group where
  name : Option Str
  repetitions : Option Int

/-- change.py 85-86: names of the columns of a group -/
def groupNames (g : Group) : List Str :=
  (List.range (g.repetitions.getD 0).toNat).map
    (fun i => (g.name.getD c!"Group") ++ c!"_" ++ natStr (i + 1))

/-- change.py 71-86: the names of the columns. Without a Field_Character there is a KeyError; a single one is not a
list (pds4_tools), and iterating over its keys gives a TypeError. -/
def columnNames (fields : List Str) (groups : List Group) : Except PyErr (List Str) :=
  match fields with
  | [] => .error .keyError
  | [_] => .error .typeError
  | fs => .ok (fs ++ groups.flatMap groupNames)

/-- change.py 89-90: of the name of a label the last letter is taken off -/
def dataFile (fn : Str) : Str := if fn.getLast? = some 'L' then fn.dropLast else fn

/-- a table of pandas: row labels (each of so many cells) and columns -/
structure Frame where
  labels : List (List Str)
  columns : List (Str × Cells)

/-- change.py 92-97 `read_csv(fn, sep=r"\s+", names=cols, engine="python")`: lines are split at white space, those
without words are left out. Names must be different. If the first row has more words than there are names, the first
words of all rows become row labels (`_get_index_name`, implicit index); a row with more words than the first is an
error if there are too many for the names and labels; shorter ones are filled up. Simplifications: lines end with LF or
CRLF; what ParserError (a ValueError) says is left out. -/
def readWords (infer : List Str → Inferred) (missing : Str → Bool) (names : List Str) (text : Str) :
    Except PyErr Frame :=
  if ¬ names.Nodup then .error .valueError
  else
    let rows := ((Locate.fileLines text).map Xml.words).filter (fun r => !r.isEmpty)
    let extra := (rows.headD []).length - names.length
    if rows.any (fun r => names.length + extra < r.length) then .error .valueError
    else .ok {
      labels := rows.map (List.take extra)
      columns := (List.range names.length).zipWith (fun i n => (n, column infer missing (rows.map (fun r => r.getD (extra + i) []))))
        names }

/-- change.py 54-98 `read_table_using_spaces`; `files` are the files that there are -/
def usingSpaces (infer : List Str → Inferred) (missing : Str → Bool) (files : Str → Option Str) (fields : List Str)
    (groups : List Group) (fn : Str) : Except PyErr Frame :=
  match columnNames fields groups with
  | .error e => .error e
  | .ok names => match files (dataFile fn) with
    | none => .error .fileNotFound
    | some text => readWords infer missing names text

/-! ### Phoenix AFM -/

/-- what stops `afm_table_loader`: a table with another name (UnboundLocalError), pandas, or names that are not as many
as the columns (AssertionError) -/
inductive Failure | unbound | pandas (t : Trouble) | mismatch
  deriving DecidableEq

/-- phoenix.py 60-74: lines to skip, rows to read -/
def window (name : Str) : Option (Nat × Nat) :=
  if contains name c!"HEADER_TABLE" then some (0, 4)
  else if name = c!"AFM_F_ERROR_TABLE" then some (4, 512)
  else if name = c!"AFM_F_HEIGHT_TABLE" then some (516, 512)
  else if name = c!"AFM_B_ERROR_TABLE" then some (1028, 512)
  else if name = c!"AFM_B_HEIGHT_TABLE" then some (1540, 512)
  else none

/-- `nrows` of `read_csv`: nothing after so many rows is read -/
def firstRows (n : Nat) (text : Str) : Except Trouble (List (List Str)) :=
  let k := text.foldl (step ',') {}
  if n ≤ k.done.length then .ok (k.done.take n)
  else match finish k with
    | .error e => .error e
    | .ok rows => .ok (rows.take n)

/-- phoenix.py 50-84 `afm_table_loader`; `names` are the NAMEs of the format definition. Simplification: line feeds
between quotes in the lines that are skipped end these lines. -/
def afmTable (infer : List Str → Inferred) (missing : Str → Bool) (content : Str) (names : List Str) (name : Str) :
    Except Failure (List (Str × Cells)) :=
  match window name with
  | none => .error .unbound
  | some (skip, count) =>
    match firstRows count ((Locate.fileLines content).drop skip).flatten with
    | .error e => .error (.pandas e)
    | .ok lines => match rectangle lines with
      | .error e => .error (.pandas e)
      | .ok (n, rows) =>
        let names := names.filter (fun m => !contains m c!"PLACEHOLDER")
        if n ≠ names.length then .error .mismatch
        else .ok (names.zip ((columnsOf n rows).map (column infer missing)))

end Verif.LooseText
