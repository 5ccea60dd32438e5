/-
Model of two readers of tables with comma-separated values: `aspera_table_loader` in `pdr/formats/mex.py` 19-41 (Mars
Express ASPERA IMA) and `spreadsheet_loader` in `pdr/formats/cassini.py` 14-51 (Cassini MIMI, RADAR, RPWS). `read_csv`
is modelled from pandas 2 (C engine): the tokenizer of Model/AsciiTable, `header`, `names`, `skiprows` and `usecols`.
What pandas makes of the cells of a column, and how it makes the names in a header differ, are parameters. Line feeds
between quotes in skipped lines end these lines here.
-/
import Verif.Model.LooseText

namespace Verif.MissionCsv
open Verif.Py Verif.Ascii Verif.LooseText

/-- mex.py 34-41: `read_csv(filename, header=None, usecols=range(n))`, where `n` is the number of names. The columns
are those of the first line; there must be as many as are used. Cells beyond them are not looked at, however many there
are. An empty file is an EmptyDataError, like ParserError a ValueError. -/
def aspera (infer : List Str → Inferred) (missing : Str → Bool) (content : Str) (names : List Str) :
    Except PyErr (List (Str × Cells)) :=
  match tokenize ',' content with
  | .error _ => .error .valueError
  | .ok [] => .error .valueError
  | .ok (first :: rest) =>
    if first.length < names.length then .error .valueError
    else .ok (names.zip ((columnsOf names.length (first :: rest)).map (column infer missing)))

/-- `read_csv` of lines under names, which must differ. If the first line has more cells than there are names, its
first cells (and those of all lines) become row labels; a longer line than the first, or than the names, is an error;
shorter ones are filled up. -/
def frame (infer : List Str → Inferred) (missing : Str → Bool) (names : List Str) (rows : List (List Str)) :
    Except PyErr Frame :=
  if ¬ names.Nodup then .error .valueError
  else
    let extra := (rows.headD []).length - names.length
    if rows.any (fun r => names.length + extra < r.length) then .error .valueError
    else .ok {
      labels := rows.map (List.take extra)
      columns := (List.range names.length).zipWith
        (fun i n => (n, column infer missing (rows.map (fun r => r.getD (extra + i) [])))) names }

/-- `read_csv` with `header=0`: the names are in the first line -/
def withHeader (infer : List Str → Inferred) (missing : Str → Bool) (differ : List Str → List Str) (text : Str) :
    Except PyErr Frame :=
  match tokenize ',' text with
  | .error _ => .error .valueError
  | .ok [] => .error .valueError
  | .ok (names :: rows) => frame infer missing (differ names) rows

/-- `read_csv` with `header=None`, `names` and `skiprows=skip` -/
def withNames (infer : List Str → Inferred) (missing : Str → Bool) (names : List Str) (skip : Nat) (content : Str) :
    Except PyErr Frame :=
  match tokenize ',' ((Locate.fileLines content).drop skip).flatten with
  | .error _ => .error .valueError
  | .ok rows => frame infer missing names rows

/-- cassini.py 14-51 `spreadsheet_loader`; `names` are the NAMEs of the format definition -/
def spreadsheet (infer : List Str → Inferred) (missing : Str → Bool) (differ : List Str → List Str) (filename : Str)
    (dataSet : Str) (content : Str) (names : List Str) : Except PyErr Frame :=
  if contains dataSet c!"UNCALIB" then withHeader infer missing differ content
  else if contains filename c!"FULL" then
    if dataSet = c!"CO-S-MIMI-4-CHEMS-CALIB-V1.0" then
      -- `skiprows=range(1, 4)`
      withHeader infer missing differ
        ((Locate.fileLines content).take 1 ++ (Locate.fileLines content).drop 4).flatten
    else withNames infer missing names 4 content
  else if dataSet = c!"CO-SSA-RADAR-3-ABDR-SUMMARY-V1.0" then withNames infer missing names 0 content
  else withNames infer missing names 7 content

end Verif.MissionCsv
