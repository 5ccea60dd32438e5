/-
Specification of image storage.
-/
import Verif.Model.Image

namespace Verif.Image.Spec

/-- how the elements of a cube of `B` bands, `L` lines and `S` samples follow one another in the file -/
inductive Storage | bandSequential | lineInterleaved | sampleInterleaved

/-- position in the file of band `b`, line `l`, sample `s` (all zero-based) -/
def position (st : Storage) (B L S b l s : Nat) : Nat :=
  match st with
  | .bandSequential => (b * L + l) * S + s
  | .lineInterleaved => (l * B + b) * S + s
  | .sampleInterleaved => (l * S + s) * B + b

/-- the storage a BAND_STORAGE_TYPE value stands for (unknown values are read as band-sequential) -/
def StorageOf (bst : Option Str) (st : Storage) : Prop :=
  (bst = some c!"LINE_INTERLEAVED" ∧ st = .lineInterleaved) ∨
  (bst = some c!"SAMPLE_INTERLEAVED" ∧ st = .sampleInterleaved) ∨
  (bst ≠ some c!"LINE_INTERLEAVED" ∧ bst ≠ some c!"SAMPLE_INTERLEAVED" ∧ st = .bandSequential)

/-- Side planes on at most one axis, no line prefixes or suffixes, no plane group of zero planes at the
end of an axis, and paddings that add up. -/
structure PlanesOk (p : Props) : Prop where
  noLinefix : p.linepad = 0
  rows : p.rowpad = p.prefixRows.getD 0 + p.suffixRows.getD 0
  cols : p.colpad = p.prefixCols.getD 0 + p.suffixCols.getD 0
  bands : p.bandpad = p.prefixBands.getD 0 + p.suffixBands.getD 0
  oneAxis : (p.rowpad = 0 ∧ p.colpad = 0) ∨ (p.rowpad = 0 ∧ p.bandpad = 0) ∨ (p.colpad = 0 ∧ p.bandpad = 0)
  nonzero : p.suffixRows ≠ some 0 ∧ p.suffixCols ≠ some 0 ∧ p.suffixBands ≠ some 0

/-- position of an element when the first listed axis varies fastest -/
def fastestFirst : List Nat → List Nat → Nat
  | n :: ns, i :: is => i + n * fastestFirst ns is
  | _, _ => 0

/-- `n` is the number of side planes that the label of a qube declares before (`suffix = false`) or after
the core along axis `ax`: none without an item size; the declared count times the item size in units of
core items; or the total size of a list of equal items in units of core items. -/
def Planes (b : QubeBlock) (names : List Axis) (ax : Axis) (suffix : Bool) (n : Nat) : Prop :=
  match b.itemBytesOf ax suffix with
  | none => n = 0
  | some (.one k) => ∃ (items : List Nat) (c i : Nat), (if suffix then b.suffixItems else b.prefixItems) = some items ∧
      names[i]? = some ax ∧ (∀ j : Nat, j < i → names[j]? ≠ some ax) ∧ items[i]? = some c ∧ c * k = n * b.itemBytes
  | some (.many ks) => (∃ items : List Nat, (if suffix then b.suffixItems else b.prefixItems) = some items) ∧
      (∃ k, ∀ x ∈ ks, x = k) ∧ ks.sum = n * b.itemBytes

end Verif.Image.Spec
