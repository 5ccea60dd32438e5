/-
Model of `pdr/datatypes.py` 17-114 (`integer_code`, `determine_byte_order`, `sample_types`), and of the
part of numpy's dtype-string grammar their results fall into.
-/
import Verif.Model.Bits

namespace Verif.Datatypes
open Verif.Py Verif.Bits

/-- the byte-order character -/
def orderChar : Order → Char
  | .big => '>' | .little => '<'

/-- datatypes.py 17-39 `integer_code` -/
def integerCode (o : Order) (signed : Bool) (sampleBytes : Nat) (forNumpy : Bool) : Str :=
  let letter : Str :=
    if sampleBytes = 4 then ['l'] else if sampleBytes = 2 then ['h'] else ['b']
  let letter := if signed = false then upper letter else letter
  let letter :=
    if forNumpy = true ∧ (sampleBytes = 4 ∨ sampleBytes = 8) then
      (if signed = true then 'i' else 'u') :: natStr sampleBytes
    else letter
  orderChar o :: letter

/-- datatypes.py 42-46 `determine_byte_order` -/
def determineByteOrder (t : Str) : Order :=
  if [c!"PC", c!"LSB", c!"VAX"].any (fun s => startsWith t s) then .little else .big

/-- `sample_type.replace(" ", "_")` -/
def underscored (t : Str) : Str := t.map (fun c => if c = ' ' then '_' else c)

/-- the dictionary of datatypes.py 82-114 -/
def typeTable (flt : Str) (void : Char) (n : Nat) : List (Str × Str) :=
  [(c!"IEEE_REAL", '>' :: flt), (c!"PC_REAL", '<' :: flt), (c!"FLOAT", '>' :: flt),
   (c!"REAL", '>' :: flt), (c!"MAC_REAL", '>' :: flt), (c!"SUN_REAL", '>' :: flt),
   (c!"MSB_BIT_STRING", void :: natStr n), (c!"LSB_BIT_STRING", void :: natStr n),
   (c!"ASCII_REAL", 'S' :: natStr n), (c!"ASCII_INTEGER", 'S' :: natStr n),
   (c!"DATE", 'S' :: natStr n), (c!"CHARACTER", 'S' :: natStr n), (c!"TIME", 'S' :: natStr n),
   (c!"VOID", void :: natStr n), (c!"BCD", void :: natStr n),
   (c!"BINARY_CODED_DECIMAL", void :: natStr n),
   (c!"VAX_REAL", '<' :: 'u' :: natStr n), (c!"IBM_REAL", '>' :: 'u' :: natStr n),
   (c!"EBCDIC", 'V' :: natStr n), (c!"EBCDIC_CHARACTER", 'V' :: natStr n)]

/-- datatypes.py 49-114 `sample_types`. Widths are naturals here. -/
def sampleTypes (sampleType : Str) (n : Nat) (forNumpy : Bool) : Except PyErr Str :=
  let t := underscored sampleType
  if (contains t c!"INTEGER" || t == c!"BOOLEAN") && !contains t c!"ASCII" then
    .ok (integerCode (determineByteOrder t) (!contains t c!"UNSIGNED") n forNumpy)
  else
    let void := if forNumpy then 'V' else 's'
    let flt : Except PyErr Str :=
      if n = 8 then .ok ['d']
      else if n = 4 then .ok ['f']
      else if contains t c!"ASCII" then .ok []
      else if contains t c!"REAL" || contains t c!"FLOAT" then .error .notImplemented
      else .ok []
    match flt with
    | .error e => .error e
    | .ok flt =>
      if t = c!"VAX_REAL" ∧ n ≠ 4 then .error .notImplemented
      else match (typeTable flt void n).lookup t with
        | some s => .ok s
        | none => .error .keyError

/-! ### numpy dtype strings -/

inductive Kind | int | uint | float | bytes | void
  deriving DecidableEq

/-- A scalar dtype: byte order (if the string gives one), kind and size in bytes. -/
structure Dtype where
  order : Option Order
  kind : Kind
  size : Nat
  deriving DecidableEq

/-- a decimal number -/
def decimal (s : Str) : Option Nat :=
  if s ≠ [] ∧ s.all Char.isDigit then some (Nat.ofDigitChars 10 s 0) else none

/-- The type part of a numpy dtype string: the one-letter codes (`l` is C `long`: 8 bytes on 64-bit Linux
and macOS), or a kind letter and a size. -/
def npCode (s : Str) : Option (Kind × Nat) :=
  match s with
  | ['b'] => some (.int, 1) | ['B'] => some (.uint, 1)
  | ['h'] => some (.int, 2) | ['H'] => some (.uint, 2)
  | ['l'] => some (.int, 8) | ['L'] => some (.uint, 8)
  | ['f'] => some (.float, 4) | ['d'] => some (.float, 8)
  | 'i' :: ds => (decimal ds).bind (fun n => if n ∈ [1, 2, 4, 8] then some (.int, n) else none)
  | 'u' :: ds => (decimal ds).bind (fun n => if n ∈ [1, 2, 4, 8] then some (.uint, n) else none)
  | 'S' :: ds => (decimal ds).map (fun n => (.bytes, n))
  | 'V' :: ds => (decimal ds).map (fun n => (.void, n))
  | _ => none

/-- `np.dtype(s)` -/
def npDtype (s : Str) : Option Dtype :=
  match s with
  | '>' :: r => (npCode r).map (fun p => ⟨some .big, p.1, p.2⟩)
  | '<' :: r => (npCode r).map (fun p => ⟨some .little, p.1, p.2⟩)
  | r => (npCode r).map (fun p => ⟨none, p.1, p.2⟩)

end Verif.Datatypes
