/-
Model of reading PDS4 arrays: `pdr/pds4_tools/reader/read_arrays.py` 22-118 and 121-273 (as pdr calls it: without scaling
and without masking), `array_objects.py` 412-470, `data_types.py` 22-57 and 389-412. NumPy 2.
-/
import Verif.Model.ImageFile
import Mathlib.Data.List.Sort

namespace Verif.Pds4Array
open Verif.Py Verif.Bits Verif.Datatypes Verif.Image Verif.Table Verif.ImageFile

/-- data_types.py 22-47 `PDS_NUMERIC_TYPES`. Left out: complex numbers and the ASCII types. -/
def numericTypes : List (Str × Dtype) :=
  [(c!"IEEE754MSBSingle", ⟨some .big, .float, 4⟩), (c!"IEEE754MSBDouble", ⟨some .big, .float, 8⟩),
   (c!"SignedMSB2", ⟨some .big, .int, 2⟩), (c!"SignedMSB4", ⟨some .big, .int, 4⟩), (c!"SignedMSB8", ⟨some .big, .int, 8⟩),
   (c!"UnsignedMSB2", ⟨some .big, .uint, 2⟩), (c!"UnsignedMSB4", ⟨some .big, .uint, 4⟩),
   (c!"UnsignedMSB8", ⟨some .big, .uint, 8⟩),
   (c!"IEEE754LSBSingle", ⟨some .little, .float, 4⟩), (c!"IEEE754LSBDouble", ⟨some .little, .float, 8⟩),
   (c!"SignedLSB2", ⟨some .little, .int, 2⟩), (c!"SignedLSB4", ⟨some .little, .int, 4⟩),
   (c!"SignedLSB8", ⟨some .little, .int, 8⟩),
   (c!"UnsignedLSB2", ⟨some .little, .uint, 2⟩), (c!"UnsignedLSB4", ⟨some .little, .uint, 4⟩),
   (c!"UnsignedLSB8", ⟨some .little, .uint, 8⟩),
   (c!"SignedByte", ⟨some .little, .int, 1⟩), (c!"UnsignedByte", ⟨some .little, .uint, 1⟩)]

/-- a value in a label: `cast_int_float_string` of its text -/
inductive Const
  | int (n : Int)
  | real (x : ℚ)
  | text (s : Str)

/-- an Axis_Array -/
structure Axis where
  sequenceNumber : Nat
  elements : Nat

/-- What the label says about an Array. `bitMask` is the number that the text of `bit_mask` is cast to: the digits read
as a decimal number. -/
structure Label where
  offset : Nat
  axes : List Axis
  dataType : Str
  bitMask : Option Nat := none
  specials : Option (List (Str × Const)) := none

/-- array_objects.py 423-433 and 445-470: `sorted(axis_arrays, key=sequence_number)`, which is stable -/
def dimensions (l : Label) : List Nat :=
  (l.axes.insertionSort (fun a b => a.sequenceNumber ≤ b.sequenceNumber)).map (·.elements)

/-- read_arrays.py 22-79 and data_types.py 389-412. A type that is not in the table is taken for characters of no size:
ValueError in `np.frombuffer`. -/
def flat (l : Label) (file : Bytes) : Except PyErr (Dtype × List Elem) :=
  match numericTypes.lookup l.dataType with
  | none => .error .valueError
  | some d => match readRecords true file l.offset d.size (prod (dimensions l)) with
    | .error e => .error e
    | .ok cells => .ok (d, elems d cells)

/-- largest integer of a dtype -/
def maxOf (d : Dtype) : Nat := if d.kind = .uint then 2 ^ (8 * d.size) - 1 else 2 ^ (8 * d.size - 1) - 1

/-- smallest integer of a dtype -/
def minOf (d : Dtype) : Int := if d.kind = .uint then 0 else -(2 ^ (8 * d.size - 1))

/-- `data[i] &= bit_mask` for a Python integer: one that the dtype does not hold is an OverflowError, and reals have
no `&` -/
def andMask (d : Dtype) (m : Nat) : Elem → Except PyErr Elem
  | .int v => if maxOf d < m then .error .overflowError else .ok (.int (((v % 2 ^ (8 * d.size)).toNat &&& m : Nat) : Int))
  | _ => .error .typeError

/-- data_types.py 1057-1068 in `mask_special_constants` for integer data: the constants that are compared, in order.
(Constants beyond 64 bits, which numpy compares as objects, are compared too.) -/
def compared (cs : List (Str × Const)) : List Int :=
  cs.filterMap (fun c => if c!"valid_".isPrefixOf c.1 then none else match c.2 with
    | .int n => some n
    | _ => none)

/-- data_types.py 1067: `data == value` for one of the constants -/
def hit (cs : List (Str × Const)) : Elem → Bool
  | .int v => decide (v ∈ compared cs)
  | _ => false

/-- read_arrays.py 81-118 `_apply_bitmask`. `oldNumPy`: NumPy before 2.1, where `np.where` of a single truth value is
taken for an array of one; later versions raise ValueError. Constants are followed for integer data. -/
def applyBitmask (oldNumPy : Bool) (d : Dtype) (mask : Str) (specials : Option (List (Str × Const))) (data : List Elem) :
    Except PyErr (List Elem) :=
  if ¬ '0' ∈ mask then .ok data
  else
    let m := Nat.ofDigitChars 2 mask 0
    match specials with
    | none => data.mapM (andMask d m)
    | some cs =>
      if compared cs = [] then .error .attributeError                        -- `masked_data` is no masked array
      else if ∃ c ∈ compared cs, c < minOf d ∨ (maxOf d : Int) < c then .error .typeError   -- `set_fill_value`
      else
        if data.any (hit cs) then data.mapM (fun e => if hit cs e then .ok e else andMask d m e)
        else if oldNumPy then match data with
          | [] => .error .indexError
          | e :: es => match andMask d m e with
            | .error err => .error err
            | .ok e' => .ok (e' :: es)
        else .error .valueError

/-- read_arrays.py 216-220: the mask with leading zeros, applied -/
def bitmasked (oldNumPy : Bool) (l : Label) (d : Dtype) (data : List Elem) : Except PyErr (List Elem) :=
  match l.bitMask with
  | none => .ok data
  | some m => applyBitmask oldNumPy d (zfill (8 * d.size) (natStr m)) l.specials data

/-- read_arrays.py 121-236 `new_array` and 239-273 `read_array_data`, with pdr.py 747-750: neither scaled nor masked.
Only arrays of several axes are given a shape. -/
def readArray (oldNumPy : Bool) (l : Label) (file : Bytes) : Except PyErr (Arr Elem) :=
  match flat l file with
  | .error e => .error e
  | .ok (d, data) =>
    match bitmasked oldNumPy l d data with
    | .error e => .error e
    | .ok data =>
      if (dimensions l).length > 1 then (Arr.ofList data).reshape (dimensions l) else .ok (Arr.ofList data)

end Verif.Pds4Array
