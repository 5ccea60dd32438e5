/-
Specification of PDS3 physical data types.
-/
import Verif.Model.Datatypes

namespace Verif.Datatypes.Spec
open Verif.Bits

/-- integer type names -/
def IntegerName (t : Str) : Prop :=
  (c!"INTEGER" <:+: t ∨ t = c!"BOOLEAN") ∧ ¬ c!"ASCII" <:+: t

/-- names of little-endian types -/
def LittleName (t : Str) : Prop := c!"PC" <+: t ∨ c!"LSB" <+: t ∨ c!"VAX" <+: t

/-- What a PDS3 type name (blanks written as underscores) and a byte width stand for. -/
inductive Means : Str → Nat → Dtype → Prop
  | integer {t : Str} {n : Nat} {o : Order} {k : Kind} : IntegerName t → n ∈ [1, 2, 4, 8] →
      (o = .little ↔ LittleName t) → (k = .int ∨ k = .uint) → (k = .uint ↔ c!"UNSIGNED" <:+: t) →
      Means t n ⟨some o, k, n⟩
  | bigReal {t : Str} {n : Nat} : t ∈ [c!"IEEE_REAL", c!"FLOAT", c!"REAL", c!"MAC_REAL", c!"SUN_REAL"] →
      n ∈ [4, 8] → Means t n ⟨some .big, .float, n⟩
  | littleReal {n : Nat} : n ∈ [4, 8] → Means c!"PC_REAL" n ⟨some .little, .float, n⟩
  | text {t : Str} {n : Nat} : t ∈ [c!"ASCII_REAL", c!"ASCII_INTEGER", c!"DATE", c!"CHARACTER", c!"TIME"] →
      Means t n ⟨none, .bytes, n⟩
  | raw {t : Str} {n : Nat} : t ∈ [c!"MSB_BIT_STRING", c!"LSB_BIT_STRING", c!"VOID", c!"BCD",
      c!"BINARY_CODED_DECIMAL", c!"EBCDIC", c!"EBCDIC_CHARACTER"] → Means t n ⟨none, .void, n⟩
  /- VAX and IBM reals are read as unsigned words and converted afterwards -/
  | vax : Means c!"VAX_REAL" 4 ⟨some .little, .uint, 4⟩
  | ibm {n : Nat} : n ∈ [4, 8] → Means c!"IBM_REAL" n ⟨some .big, .uint, n⟩

end Verif.Datatypes.Spec
