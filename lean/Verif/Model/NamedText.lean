/-
Model of the readers of text tables that take only the names of columns from the label:
`curve_table_loader` in `pdr/formats/ihw.py` 3-16, `map_table_loader` in `pdr/formats/odyssey.py` 3-18,
`gas_table_loader` in `pdr/formats/ulysses.py` 4-21, `lecp_table_loader` in `pdr/formats/voyager.py` 112-133,
`mrs_l1b_odf_table_loader` in `pdr/formats/mex.py` 129-145, `seis_table_loader` in `pdr/formats/viking.py` 4-42
(white space or commas), `rss_spreadsheet_loader` in `pdr/formats/mer.py` 3-17 and `geom_table_loader` in
`pdr/formats/mgn.py` 8-31 (commas). Simplifications: tables divided at white space have no quotes, and no white space
but blanks, tabs and line ends; lines end with LF or CRLF; file names are ASCII. What pandas makes of the cells of a
column is a parameter.
-/
import Verif.Model.LooseText

namespace Verif.NamedText
open Verif.Py Verif.Ascii Verif.LooseText

/-- what stops a reader: pandas; names that are not as many as the columns (AssertionError, or the ValueError of pandas
in mex.py); a ValueError for a name that is not in the label or a table that is not known (viking.py) -/
inductive Failure | pandas (t : Trouble) | mismatch | value
  deriving DecidableEq

/-- `read_csv` without names: the first line says how many columns there are -/
def table (infer : List Str → Inferred) (missing : Str → Bool) (names : List Str) (lines : List (List Str)) :
    Except Failure (List (Str × Cells)) :=
  match rectangle lines with
  | .error e => .error (.pandas e)
  | .ok (n, rows) =>
    if n ≠ names.length then .error .mismatch
    else .ok (names.zip ((columnsOf n rows).map (column infer missing)))

/-- `read_csv(filename, header=None, sep=r"\s+", skiprows=skip)`: the words of the lines that have some -/
def wordLines (skip : Nat) (content : Str) : List (List Str) :=
  (((Locate.fileLines content).drop skip).map Xml.words).filter (fun r => !r.isEmpty)

/-- the readers of tables divided at white space -/
inductive Reader | curve | map | lecp | odf | gas

/-- the names that they use: all (ulysses.py 20), those that do not start with PLACEHOLDER (mex.py 142-144), those
without PLACEHOLDER in them -/
def namesFor : Reader → List Str → List Str
  | .gas, names => names
  | .odf, names => names.filter (fun m => !startsWith m c!"PLACEHOLDER")
  | _, names => names.filter (fun m => !contains m c!"PLACEHOLDER")

/-- ulysses.py 18: `skiprows=17` -/
def skipFor : Reader → Nat
  | .gas => 17
  | _ => 0

/-- ihw.py 3-16, odyssey.py 3-18, voyager.py 112-133, mex.py 129-145, ulysses.py 4-21 -/
def words (infer : List Str → Inferred) (missing : Str → Bool) (r : Reader) (content : Str) (names : List Str) :
    Except Failure (List (Str × Cells)) :=
  table infer missing (namesFor r names) (wordLines (skipFor r) content)

/-- `read_csv(filename, header=None, sep=",")` -/
def commas (infer : List Str → Inferred) (missing : Str → Bool) (content : Str) (names : List Str) :
    Except Failure (List (Str × Cells)) :=
  match tokenize ',' content with
  | .error e => .error (.pandas e)
  | .ok lines => table infer missing names lines

/-- mer.py 3-17 -/
def uhfd (infer : List Str → Inferred) (missing : Str → Bool) (content : Str) (names : List Str) :
    Except Failure (List (Str × Cells)) :=
  commas infer missing content names

/-- mgn.py 8-31: null bytes are taken out -/
def geom (infer : List Str → Inferred) (missing : Str → Bool) (content : Str) (names : List Str) :
    Except Failure (List (Str × Cells)) :=
  commas infer missing (content.filter (fun c => c.toNat ≠ 0)) (names.filter (fun m => !contains m c!"PLACEHOLDER"))

/-- `list.remove` -/
def remove (x : Str) (names : List Str) : Except Failure (List Str) :=
  if names.contains x then .ok (names.erase x) else .error .value

/-- viking.py 18: `filepath.split("/")[-1]` in lower case -/
def fileName (path : Str) : Str := lower (path.reverse.takeWhile (fun c => c ≠ '/')).reverse

/-- viking.py 4-42 -/
def seis (infer : List Str → Inferred) (missing : Str → Bool) (path content : Str) (names : List Str) :
    Except Failure (List (Str × Cells)) :=
  let names := names.filter (fun m => !contains m c!"PLACEHOLDER")
  let file := fileName path
  if contains file c!"summary" then
    match remove c!"SEISMIC_TIME_SOLS" names with
    | .error e => .error e
    | .ok names =>
      -- `insert(7, …)`
      let names := if contains file c!"event_wind_summary" then
          names.take 7 ++ [c!"ORIGINAL_LINES_COUNT"] ++ names.drop 7 else names
      table infer missing names (wordLines 0 content)
  else if contains file c!"event" then
    match remove c!"SEISMIC_SOL" names with
    | .error e => .error e
    | .ok names => commas infer missing content names
  else if contains file c!"high" then commas infer missing content names
  else .error .value

end Verif.NamedText
