/-
Model of readers of tables with comma- or semicolon-separated values and lines before them:
`edr_table_loader` in `pdr/formats/msl_rems.py` 3-26, `mini_rf_spreadsheet_loader` in `pdr/formats/lro.py` 91-109,
`spreadsheet_loader` in `pdr/formats/msl_places.py` 3-15, `pws_table_loader` in `pdr/formats/galileo.py` 156-168.
`read_csv` is modelled from pandas 2 (C engine), as in Model/MissionCsv.
-/
import Verif.Model.NamedText

namespace Verif.HeadedText
open Verif.Py Verif.Ascii Verif.NamedText
open Verif.LooseText hiding Failure

/-- msl_rems.py 3-26: `skiprows=int(start_byte / 399)`, `nrows=ROWS`; names without PLACEHOLDER. Line feeds between
quotes in the lines that are skipped end them here. -/
def rems (infer : List Str → Inferred) (missing : Str → Bool) (content : Str) (start rows : Nat) (names : List Str) :
    Except Failure (List (Str × Cells)) :=
  match firstRows rows ((Locate.fileLines content).drop (start / 399)).flatten with
  | .error e => .error (.pandas e)
  | .ok lines => table infer missing (names.filter (fun m => !contains m c!"PLACEHOLDER")) lines

/-- `read_csv` of lines under `n` names, and other names given to the columns after that. If the first line has more
than `n` cells, its first cells (and those of all lines) become row labels; longer lines are an error. -/
def under (infer : List Str → Inferred) (missing : Str → Bool) (n : Nat) (names : List Str) (rows : List (List Str)) :
    Except Failure Frame :=
  let extra := (rows.headD []).length - n
  if rows.any (fun r => n + extra < r.length) then .error (.pandas .parser)
  else if n ≠ names.length then .error .mismatch
  else .ok {
    labels := rows.map (List.take extra)
    columns := (List.range names.length).zipWith
      (fun i m => (m, column infer missing (rows.map (fun r => r.getD (extra + i) [])))) names }

/-- lro.py 91-109: read under three names -/
def miniRf (infer : List Str → Inferred) (missing : Str → Bool) (content : Str) (names : List Str) :
    Except Failure Frame :=
  match tokenize ',' content with
  | .error e => .error (.pandas e)
  | .ok rows => under infer missing 3 names rows

/-- `read_csv` with `header=k`: line `k` (blank lines are not counted) has names, those before it are left out -/
def headed (infer : List Str → Inferred) (missing : Str → Bool) (sep : Char) (k : Nat) (content : Str)
    (names : List Str) : Except Failure Frame :=
  match tokenize sep content with
  | .error e => .error (.pandas e)
  | .ok rows => match rows.drop k with
    | [] => .error (.pandas .empty)
    | header :: rows => under infer missing header.length names rows

/-- msl_places.py 3-15 -/
def places (infer : List Str → Inferred) (missing : Str → Bool) (content : Str) (names : List Str) :
    Except Failure Frame :=
  headed infer missing ',' 0 content names

/-- galileo.py 156-168: `header=1, sep=";"` -/
def pws (infer : List Str → Inferred) (missing : Str → Bool) (content : Str) (names : List Str) :
    Except Failure Frame :=
  headed infer missing ';' 1 content names

end Verif.HeadedText
