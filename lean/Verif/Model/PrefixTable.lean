/-
Model of line prefix tables that the label does not define themselves: `pdr/loaders/queries.py` 284-321.
-/
import Verif.Model.Table

namespace Verif.PrefixTable
open Verif.Py

/-- The block of an image once the file that `^LINE_PREFIX_STRUCTURE` names has been put into it: what it says about the
image, and what it says about the table (`table`: the columns, and any of ROWS, ROW_BYTES, ... that are there; `name` is the
name of the table). -/
structure Image where
  lines : Option Nat := none
  lineSamples : Option Nat := none
  sampleBits : Option Nat := none
  linePrefixBytes : Option Nat := none
  lineSuffixBytes : Option Nat := none
  bands : Option Nat := none
  table : Table.Block

/-- queries.py 301-302 -/
def rowsOf (i : Image) : Except PyErr Nat :=
  match i.table.rows with
  | some r => .ok r
  | none => match i.lines with
    | some n => .ok n
    | none => .error .keyError

/-- queries.py 303-306 -/
def suffixOf (i : Image) : Except PyErr Int :=
  match i.table.rowSuffix with
  | some s => .ok s
  | none => match i.sampleBits, i.lineSamples with
    | some b, some s => .ok ((b / 8 * s : Nat) : Int)
    | _, _ => .error .keyError

/-- queries.py 284-307 `_fix_up_line_prefix_table_block` -/
def prefixBlock (i : Image) : Except PyErr Table.Block :=
  match rowsOf i with
  | .error e => .error e
  | .ok r => match suffixOf i with
    | .error e => .error e
    | .ok s => .ok { i.table with rows := some r, rowSuffix := some s }

/-- queries.py 310-321 `get_block` for such a table, and reading it (Model/Table). It starts where the image does (queries.py
337-338). -/
def readPrefixTable (src : Table.Source) (i : Image) (start : Nat) : Except PyErr (Option (List (Str × Table.Column))) :=
  match prefixBlock i with
  | .error e => .error e
  | .ok b => Table.readTable src b start

end Verif.PrefixTable
