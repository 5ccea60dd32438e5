/-
Specification of histograms: a number of items of the same type, one directly after the other.
-/
import Verif.Model.Histogram
import Verif.Spec.Table

namespace Verif.Histogram.Spec
open Verif.Py Verif.Datatypes Verif.Datatypes.Spec Verif.Table.Spec

/-- A binary HISTOGRAM of `n` items of `size` bytes each. BYTES, if given, is the size of all of them. -/
structure Binary (h : Block) (n size : Nat) : Prop where
  items : h.items = some n ∧ 0 < n
  itemBytes : h.itemBytes = some size ∧ 0 < size
  bytes : h.bytes = none ∨ h.bytes = some (n * size)
  noStart : h.startByte = none
  noRows : h.rows = none
  interchange : h.interchange ≠ some c!"ASCII"
  objectName : ¬ c!"SPREADSHEET" <:+: h.name ∧ ¬ c!"ASCII" <:+: h.name
  type : ¬ c!"ASCII" <:+: h.attrs.dataType ∧ (Native h.attrs.dataType ∨ n = 1) ∧ ∃ d, Means (underscored h.attrs.dataType) size d
  label : h.histName.getD h.name ≠ c!"RESERVED" ∧ ¬ c!"PLACEHOLDER" <:+: h.histName.getD h.name

/-- the name of item number `i` of `n`: NAME, or the name of the object, with the number of the item if there are several -/
def itemName (h : Block) (n i : Nat) : Str :=
  if n = 1 then h.histName.getD h.name else h.histName.getD h.name ++ c!"_" ++ natStr i

end Verif.Histogram.Spec
