/-
Specification of PDS4 arrays.
-/
import Verif.Spec.ImageFile
import Verif.Model.Pds4Array

namespace Verif.Pds4Array.Spec
open Verif.Py Verif.Bits Verif.Datatypes Verif.Image Verif.Table.Spec Verif.ImageFile Verif.ImageFile.Spec

/-- the letters of a byte order -/
def orderName : Order → Str
  | .big => c!"MSB"
  | .little => c!"LSB"

/-- the PDS4 data types for numbers in binary -/
inductive Pds4Type : Str → Dtype → Prop
  | signed (o : Order) (n : Nat) : n ∈ [2, 4, 8] → Pds4Type (c!"Signed" ++ orderName o ++ natStr n) ⟨some o, .int, n⟩
  | unsigned (o : Order) (n : Nat) : n ∈ [2, 4, 8] → Pds4Type (c!"Unsigned" ++ orderName o ++ natStr n) ⟨some o, .uint, n⟩
  | single (o : Order) : Pds4Type (c!"IEEE754" ++ orderName o ++ c!"Single") ⟨some o, .float, 4⟩
  | double (o : Order) : Pds4Type (c!"IEEE754" ++ orderName o ++ c!"Double") ⟨some o, .float, 8⟩
  | signedByte (o : Order) : Pds4Type c!"SignedByte" ⟨some o, .int, 1⟩
  | unsignedByte (o : Order) : Pds4Type c!"UnsignedByte" ⟨some o, .uint, 1⟩

/-- The Axis_Arrays, in any order, give this shape: the axis with sequence number `k` has `shape[k - 1]` elements. -/
def Shaped (axes : List Axis) (shape : List Nat) : Prop :=
  ((axes.map (fun a => (a.sequenceNumber, a.elements))).Perm ((List.range shape.length).map (fun k => k + 1) |>.zip shape))

/-- A mask of binary digits, as it stands in the label: its last digit is for the lowest bit. -/
def MaskBit (mask : Str) (i : Nat) : Prop := mask.reverse[i]? = some '1'

/-- `v` is an integer of the type -/
def Fits (d : Dtype) (v : Int) : Prop :=
  (d.kind = .int → -(2 ^ (8 * d.size - 1)) ≤ v ∧ v < 2 ^ (8 * d.size - 1)) ∧ (d.kind = .uint → 0 ≤ v ∧ v < 2 ^ (8 * d.size))

/-- `w` is `v` with only the bits of the mask, both as two's complement or unsigned words of the type -/
def Masked (d : Dtype) (mask : Str) (v w : Int) : Prop :=
  Fits d w ∧ ∀ i < 8 * d.size,
      ((w % 2 ^ (8 * d.size)).toNat.testBit i = true ↔ (v % 2 ^ (8 * d.size)).toNat.testBit i = true ∧ MaskBit mask i)

/-- one of the Special_Constants is this integer (the names that start with `valid_` are no constants) -/
def IsConstant (cs : List (Str × Const)) (v : Int) : Prop := ∃ name, (name, Const.int v) ∈ cs ∧ ¬ c!"valid_" <+: name

end Verif.Pds4Array.Spec
