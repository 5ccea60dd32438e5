/-
Model of the scaling of PDS4 integer data: `pdr/pds4_tools/reader/data_types.py` 741-1140, under NumPy 2.
-/
import Verif.Model.NumPy

namespace Verif.Pds4Scale
open Verif.Py Verif.NumPy

/-- the smallest value of a list that is not empty -/
def minOf (x : Int) (xs : List Int) : Int := xs.foldl min x

/-- the largest value -/
def maxOf (x : Int) (xs : List Int) : Int := xs.foldl max x

/-- data_types.py 1099-1140: the type for a smallest and largest value. `d` is the dtype the values come in:
`abs` of a NumPy integer stays in its dtype, `abs` of a Python integer (`none`) is exact. -/
def typeFor (d : DType) (dataMin dataMax : Int) : DType :=
  let abs' := fun (x : Int) => match d with
    | some t => wrap t x.natAbs
    | none => (x.natAbs : Int)
  let absMax := max (abs' dataMin) (abs' dataMax)
  if absMax ≤ 127 then some int8
  else if absMax ≤ 255 then (if 0 ≤ dataMin then some uint8 else some int16)
  else if absMax ≤ 32767 then some int16
  else if absMax ≤ 65535 then (if 0 ≤ dataMin then some uint16 else some int32)
  else if absMax ≤ 2147483647 then some int32
  else if absMax ≤ 4294967295 then (if 0 ≤ dataMin then some uint32 else some int64)
  else if absMax ≤ 9223372036854775807 then some int64
  else if absMax ≤ 18446744073709551615 ∧ 0 ≤ dataMin then some uint64
  else none

/-- data_types.py 1073-1140 `get_min_integer_numpy_type` -/
def minIntType (d : DType) : List Int → Except PyErr DType
  | [] => .error .valueError
  | x :: xs => .ok (typeFor d (minOf x xs) (maxOf x xs))

/-- an element of a masked array -/
abbrev Elem := Int × Bool

/-- data_types.py 994-1070 `mask_special_constants` for integer data and integer constants -/
def maskSpecials (specials : List (List Char × Int)) (data : List Elem) : List Elem :=
  data.map fun e => (e.1, e.2 || specials.any (fun s => !("valid_".toList.isPrefixOf s.1) && decide (e.1 = s.2)))

/-- data_types.py 934-968 in `get_scaled_numpy_type`, with `include_unscaled` -/
def scaledType (data : List Int) (scale offset : Int) : Except PyErr DType :=
  match data with
  | [] => .error .valueError
  | x :: xs =>
    let a := minOf x xs
    let b := maxOf x xs
    minIntType none [a, b, a * scale + offset, b * scale + offset]

/-- data_types.py 821-869 `adjust_array_data_type` -/
def adjust (d : DType) (data : List Elem) (scale offset : Int) : Except PyErr (DType × List Elem) := do
  let new ← scaledType (data.map (·.1)) scale offset
  match d, new with
  | none, _ => .ok (none, data)
  | some _, none => .ok (none, data)
  | some t, some n =>
    if t.signed ≠ n.signed ∨ t.bits < n.bits then .ok (some n, data.map fun e => (wrap n e.1, e.2))
    else .ok (some t, data)

/-- `data *= np.array(s, dtype)` or `data += np.array(s, dtype)`: elements that are masked are kept -/
def inPlace (op : Int → Int → Int) (d : DType) (s : Int) (data : List Elem) : Except PyErr (List Elem) := do
  let sd ← minIntType none [s]
  let p := promote d sd
  if sameKind p d then .ok (data.map fun e => if e.2 then e else (back p d (op e.1 s), e.2))
  else .error .typeError                           -- UFuncTypeError

/-- data_types.py 787-801: `skip` if there is nothing to multiply by or to add -/
def step (skip : Prop) [Decidable skip] (op : Int → Int → Int) (d : DType) (s : Int) (data : List Elem) :
    Except PyErr (List Elem) :=
  if skip then .ok data else inPlace op d s data

/-- `data.astype(f)` -/
def cast (f : DType) (data : List Elem) : List Elem :=
  match f with
  | some n => data.map fun e => (wrap n e.1, e.2)
  | none => data

/-- data_types.py 803-812: casting down. An object array is integer data if an element is not masked
(`is_pds_integer_data`). -/
def castDown (d : DType) (data : List Elem) : Except PyErr (DType × List Elem) :=
  if d = none ∧ data.all (·.2) then .ok (d, data)
  else do
    let f ← minIntType d (data.map (·.1))
    .ok (f, cast f data)

/-- data_types.py 741-818 `apply_scaling_and_value_offset` for integer data, scaling factor and offset -/
def apply (d : DType) (data : List Elem) (scale offset : Option Int) (specials : Option (List (List Char × Int))) :
    Except PyErr (DType × List Elem) :=
  let noScaling := scale = none ∨ scale = some 1
  let noOffset := offset = none ∨ offset = some 0
  if noScaling ∧ noOffset then .ok (d, data)
  else do
    let masked := match specials with
      | some s => maskSpecials s data
      | none => data
    let (d', x) ← adjust d masked (scale.getD 1) (offset.getD 0)
    let y ← step noScaling (· * ·) d' (scale.getD 1) x
    let z ← step noOffset (· + ·) d' (offset.getD 0) y
    let (f, out) ← castDown d' z
    -- 815-816: the original mask is put back, if anything was masked
    if specials.isSome ∧ data.any (·.2) then .ok (f, List.zipWith (fun o e => (o.1, e.2)) out data)
    else .ok (f, out)

end Verif.Pds4Scale
