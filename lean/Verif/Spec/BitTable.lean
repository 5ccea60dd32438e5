/-
Specification of bit columns in binary tables.
-/
import Verif.Spec.Table
import Verif.Spec.Bits
import Verif.Model.BitTable

namespace Verif.BitTable.Spec
open Verif.Py Verif.Format Verif.Format.Spec Verif.Datatypes.Spec Verif.Datatypes Verif.Bits Verif.Bits.Spec Verif.Table.Spec

/-- names of types for characters and uninterpreted bytes -/
def byteTypes : List Str :=
  [c!"ASCII_REAL", c!"ASCII_INTEGER", c!"DATE", c!"CHARACTER", c!"TIME", c!"MSB_BIT_STRING", c!"LSB_BIT_STRING", c!"VOID", c!"BCD",
   c!"BINARY_CODED_DECIMAL", c!"EBCDIC", c!"EBCDIC_CHARACTER"]

/-- The type a column with bit columns is read as: its DATA_TYPE, if that says BIT_STRING; otherwise a bit string with the
byte order of the integer type of the first BIT_COLUMN. If that has a type for bytes, the DATA_TYPE stays. For Cassini ISS it
is always MSB_BIT_STRING, for the instruments in `msbInstruments` if the DATA_TYPE does not say BIT_STRING. -/
inductive TypedAs (ids : Ids) (a : Attrs) (o : BitObj) : Str → Prop
  | iss : ids.iss = true → TypedAs ids a o c!"MSB_BIT_STRING"
  | stated : ids.iss = false → c!"BIT_STRING" <:+: underscored a.dataType → TypedAs ids a o (underscored a.dataType)
  | known : ids.iss = false → ¬ c!"BIT_STRING" <:+: underscored a.dataType → ids.instrument ∈ msbInstruments →
      TypedAs ids a o c!"MSB_BIT_STRING"
  | big {u : Str} : ids.iss = false → ¬ c!"BIT_STRING" <:+: underscored a.dataType → ids.instrument ∉ msbInstruments →
      o.bitType = some u → IntegerName (underscored u) → ¬ LittleName (underscored u) → TypedAs ids a o c!"MSB_BIT_STRING"
  | little {u : Str} : ids.iss = false → ¬ c!"BIT_STRING" <:+: underscored a.dataType → ids.instrument ∉ msbInstruments →
      o.bitType = some u → IntegerName (underscored u) → LittleName (underscored u) → TypedAs ids a o c!"LSB_BIT_STRING"
  | kept {u : Str} : ids.iss = false → ¬ c!"BIT_STRING" <:+: underscored a.dataType → ids.instrument ∉ msbInstruments →
      o.bitType = some u → underscored u ∈ byteTypes → TypedAs ids a o (underscored a.dataType)

/-- The fields a BIT_COLUMN declares, as (one-based start, size). For the Galileo SSI, items without ITEM_BITS have BITS bits each,
or one if that is not given either. -/
inductive Declared (ids : Ids) : BitDef → List (Nat × Nat) → Prop
  | plain {d : BitDef} {fs : List (Nat × Nat)} : Declares d fs → Declared ids d fs
  | ssi {nm : Option Str} {s b n : Nat} : ids.iss = false → ids.ssi = true → 0 < n →
      Declared ids ⟨nm, some (n : Int), none, some (s : Int), some (b : Int)⟩ ((List.range n).map (fun i => (s + i * b, b)))
  | ssiOne {nm : Option Str} {s n : Nat} : ids.iss = false → ids.ssi = true → 0 < n →
      Declared ids ⟨nm, some (n : Int), none, some (s : Int), none⟩ ((List.range n).map (fun i => (s + i, 1)))

/-- what pdr makes of the attributes of a column: the type is that of `TypedAs`; the fields are those the BIT_COLUMNs declare.
(The correction for JIRAM is left out, see C09.) -/
inductive ReadAs (ids : Ids) : Attrs → Attrs → Prop
  | plain {a : Attrs} : a.bits = none → ReadAs ids a a
  | bits {a : Attrs} {o : BitObj} {t : Str} {fss : List (List (Nat × Nat))} : a.bits = some o → o.defs ≠ [] →
      List.Forall₂ (Declared ids) o.defs fss → TypedAs ids a o t →
      (¬ ids.instrument <:+: c!"JOVIAN INFRARED AURORAL MAPPER" ∨
        ∀ d, o.defs.getLast? = some d → d.name ≠ some c!"NADIR_OFFSET_SIGN") →
      ReadAs ids a { a with
        dataType := t
        bits := some ⟨o.defs, o.bitType,
          some (fss.flatten.map (fun f => some (f.1 : Int)), fss.flatten.map (fun f => some (f.2 : Int)))⟩ }

/-- a column of the label, and what it is read as -/
def ColReadAs (ids : Ids) (c c' : Col) : Prop := ∃ a, ReadAs ids c.attrs a ∧ c' = { c with attrs := a }

/-- an entry of the label, and what it is read as -/
inductive EntryReadAs (ids : Ids) : Format.Spec.Entry → Format.Spec.Entry → Prop
  | col {c c' : Col} : ColReadAs ids c c' → EntryReadAs ids (.col c) (.col c')
  | cont {n : Str} {s : Int} {b : Nat} {r : Option Nat} {cs cs' : List Col} : List.Forall₂ (ColReadAs ids) cs cs' →
      EntryReadAs ids (.cont n s b r cs) (.cont n s b r cs')

/-- the bits of a value of type `t`: byte after byte, for LSB_BIT_STRING after turning the bytes of each machine word around -/
def bitsOf (t : Str) (bs : Bytes) : Str :=
  if t = c!"LSB_BIT_STRING" then bytesBits (swapWords (wordWidths bs.length) bs) else bytesBits bs

end Verif.BitTable.Spec
