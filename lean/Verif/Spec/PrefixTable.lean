/-
Specification of line prefix tables: lines of an image with some bytes before the samples that hold the values of a table.
-/
import Verif.Model.PrefixTable
import Verif.Spec.Table

namespace Verif.PrefixTable.Spec
open Verif.Py Verif.Format Verif.Format.Spec Verif.Table.Spec

/-- What the label says about a line prefix table. The columns of the table are placed (as in C62) within the prefix; the
last has no ITEMS; ROWS, ROW_PREFIX_BYTES and ROW_SUFFIX_BYTES are not given. -/
structure Defined (i : Image) (n samples bytes : Nat) (first : Col) (rest : List Format.Spec.Entry) : Prop where
  lines : i.lines = some n
  samples : i.lineSamples = some samples
  bits : i.sampleBits = some (8 * bytes)
  rows : i.table.rows = none
  noPrefix : i.table.rowPrefix = none
  noSuffix : i.table.rowSuffix = none
  placed : Placed { i.table with rows := some n } first rest
  last : ∃ before last, Entry.col first :: rest = before ++ [Entry.col last] ∧ last.itemBytes = none

/-- the bytes of a line: prefix, samples, suffix -/
def lineBytes (i : Image) (samples bytes : Nat) : Nat := i.linePrefixBytes.getD 0 + samples * bytes + i.lineSuffixBytes.getD 0

/-- the columns end with byte `e` of the line: this is what ROW_BYTES says or, if it does not say anything, where the last
column ends -/
def EndsAt (i : Image) (first : Col) (rest : List Format.Spec.Entry) (e : Nat) : Prop :=
  (∀ s ∈ slots 0 (.col first :: rest), s.off + s.size ≤ e) ∧
  (i.table.rowBytes = some (e : Int) ∨ i.table.rowBytes = none ∧ ∀ last, (Entry.col first :: rest).getLast? = some (.col last) → last.start - 1 + last.bytes = e)

end Verif.PrefixTable.Spec
