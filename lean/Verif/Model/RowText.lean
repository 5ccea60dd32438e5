/-
Model of two readers of text tables whose line ends are wrong: `add_newlines_table_loader` in
`pdr/formats/ihw.py` 19-54 (Halley and ICE tables without line ends) and `occultation_loader` in
`pdr/formats/mgn.py` 55-93 (Magellan occultation profiles with line feeds inside rows). Simplifications: the
file is ASCII text, so `.decode()` (ihw.py 41, mgn.py 81) gives a character for each byte; of the format
definition only NAME, SB_OFFSET and BYTES are used.
-/
import Verif.Model.AsciiTable

namespace Verif.RowText
open Verif.Py Verif.Ascii

/-- a row of the format definition: NAME, SB_OFFSET, BYTES -/
structure Col where
  name : Str
  off : Int
  size : Nat

/-- ihw.py 36-40: `n` rows of `size` characters are read, a line feed is added to each. `rest` is what has not
been read. -/
def addNewlines : Nat → Nat → Str → Str
  | 0, _, _ => []
  | n + 1, size, rest => rest.take size ++ c!"\n" ++ addNewlines n size (rest.drop size)

/-- mgn.py 72-80: the same, with line feeds only in rows that do not end with one, which are taken out, and one
character more is read -/
def takeNewlines : Nat → Nat → Str → Str
  | 0, _, _ => []
  | n + 1, size, rest =>
    if endsWith (rest.take size) c!"\n" then rest.take size ++ takeNewlines n size (rest.drop size)
    else (rest.take size).filter (fun c => c ≠ '\n') ++ (rest.drop size).take 1 ++
      takeNewlines n size ((rest.drop size).drop 1)

/-- ihw.py 44-52, mgn.py 83-92: `read_fwf` (EmptyDataError is a ValueError), and the names -/
def columns (P : Pandas) (cols : List Col) (text : Str) : Except PyErr (List (Str × Cells)) :=
  match readFixed P (cols.map (fun c => (c.off, c.size))) text with
  | none => .error .valueError
  | some cells => .ok ((cols.map (·.name)).zip cells)

/-- ihw.py 19-54 `add_newlines_table_loader`: `start` is `start_byte`, `rows` and `size` are ROWS and ROW_BYTES -/
def halley (P : Pandas) (content : Str) (start rows size : Nat) (cols : List Col) :
    Except PyErr (List (Str × Cells)) :=
  match columns P cols (addNewlines rows size (content.drop start)) with
  | .error e => .error e
  | .ok t => .ok (t.filter (fun q => !contains q.1 c!"PLACEHOLDER"))

/-- mgn.py 55-93 `occultation_loader`: `records` is FILE_RECORDS, `size` is ROW_BYTES. `drop` of a column that
is not there is a KeyError. -/
def occultation (P : Pandas) (content : Str) (records size : Nat) (cols : List Col) :
    Except PyErr (List (Str × Cells)) :=
  match columns P cols (takeNewlines records size content) with
  | .error e => .error e
  | .ok t =>
    if (t.map Prod.fst).contains c!"PLACEHOLDER_0" then .ok (t.filter (fun q => q.1 ≠ c!"PLACEHOLDER_0"))
    else .error .keyError

end Verif.RowText
