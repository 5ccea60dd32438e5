/-
Model of the tables in FITS files: `pdr/loaders/handlers.py` 102-176 and `pdr/pd_utils.py` 271-318. What astropy affords as
the fields of a table (`body[k]`) is the input.
-/
import Verif.Model.Format
import Verif.Model.Bits
import Verif.Model.Image

namespace Verif.FitsTable
open Verif.Py
open Verif.Bits (Order)
open Verif.Format (reindexDupes numbered)

/-- An element of an array: its words (a complex number has two). A text, truth value or object is one word that is never
looked into. -/
abbrev Elem := List Bytes

/-- The array of a field, `body[k]`: its byte order, if its type has one, the shape of the part for one record, and for each
record the elements, the last index fastest. -/
structure Arr where
  order : Option Order
  shape : List Nat
  recs : List (List Elem)

/-- a column of a data frame -/
structure Column where
  name : Str
  order : Option Order
  cells : List Elem

/-- `dtype.isnative` -/
def isNative (native : Order) (o : Option Order) : Bool := o = none || o = some native

/-- `array.byteswap()` of an element -/
def swap (e : Elem) : Elem := e.map List.reverse

/-- np_utils.py 17-53 `enforce_order_and_object` and handlers.py 155-159, one field: `array.byteswap()` seen as
`newbyteorder("=")`. (With several fields NumPy's conversion does the same; there are no void types in FITS tables.) -/
def enforced (native : Order) (a : Arr) : Arr :=
  if isNative native a.order then a else { a with order := some native, recs := a.recs.map (·.map swap) }

/-- the `k`-th elements of all records -/
def nth (a : Arr) (k : Nat) : List Elem := a.recs.map (fun r => r.getD k [])

/-- pd_utils.py 271-289 `rectified_rec_df` of some fields with one element each -/
def plainFrame (native : Order) (fs : List (Str × Arr)) : List Column :=
  fs.map (fun f => ⟨f.1, (enforced native f.2).order, nth (enforced native f.2) 0⟩)

/-- pd_utils.py 271-289 `rectified_rec_df` of one field with several elements, with the names of 311-313 -/
def blockFrame (native : Order) (f : Str × Arr) : Except PyErr (List Column) :=
  if 2 < f.2.shape.length then .error .notImplemented
  else .ok ((List.range (Image.prod f.2.shape)).map (fun k =>
    ⟨numbered f.1 k, (enforced native f.2).order, nth (enforced native f.2) k⟩))

/-- pd_utils.py 292-315: the loop over the fields; the first argument is `name_buffer` -/
def frames (native : Order) : List (Str × Arr) → List (Str × Arr) → Except PyErr (List (List Column))
  | buffer, [] => .ok (if buffer.isEmpty then [] else [plainFrame native buffer])
  | buffer, f :: fs =>
    if f.2.shape = [] then frames native (buffer ++ [f]) fs
    else match blockFrame native f with
      | .error e => .error e
      | .ok block => (frames native [] fs).map (fun rest =>
          (if buffer.isEmpty then [] else [plainFrame native buffer]) ++ block :: rest)

/-- pd_utils.py 292-318 `structured_array_to_df`; `pd.concat` of nothing is a ValueError -/
def toFrame (native : Order) (fs : List (Str × Arr)) : Except PyErr (List Column) :=
  match frames native [] fs with
  | .error e => .error e
  | .ok [] => .error .valueError
  | .ok dfs => .ok dfs.flatten

/-- The shape that NumPy gives a field of the dtype of handlers.py 139-147: `(name, type, 1)` is a field with a single
element, not one with an array of one element. -/
def dtypeShape (a : Arr) : List Nat := if a.shape = [1] then [] else a.shape

/-- what `np.rec.fromarrays` takes for the shape of the whole array: the shape of the field without the part for one record -/
def leading (a : Arr) : List Nat :=
  let whole := a.recs.length :: a.shape
  whole.take (whole.length - (dtypeShape a).length)

/-- handlers.py 148-152: `np.rec.fromarrays`. Names have to be different, and the arrays of the same shape; the array it makes
has to have one dimension (else `from_records` raises, ValueError as well). -/
def fromArrays (fs : List (Str × Arr)) : Except PyErr (List (Str × Arr)) :=
  if ¬ (fs.map (·.1)).Nodup then .error .valueError
  else if fs.all (fun f => (leading f.2).length = 1) then .ok fs
  else .error .valueError

/-- handlers.py 121-161 `_convert_fits_table_to_df`; `nested`: `max(map(len, body.dtype.descr)) > 2`, `binary`: the HDU is a
`BinTableHDU`. Simplification: there is at least one field. -/
def convert (native : Order) (binary nested : Bool) (fs : List (Str × Arr)) : Except PyErr (List Column) :=
  if nested then
    if fs.any (fun f => decide (2 < f.2.shape.length)) then .error .notImplemented
    else match fromArrays fs with
      | .error e => .error e
      | .ok fs => toFrame native fs
  else if binary then .ok (fs.map (fun f => ⟨f.1, (enforced native f.2).order, nth (enforced native f.2) 0⟩))
  else .ok (fs.map (fun f => ⟨f.1, f.2.order, nth f.2 0⟩))

/-- handlers.py 102-118 for a table: `names` are the TTYPEs. Simplification: astropy refuses fields of the same name (it
compares them without regard to case; so does this only for names that are equal). -/
def readTable (native : Order) (binary nested : Bool) (names : List Str) (arrs : List Arr) : Except PyErr (List Column) :=
  let names := if binary then reindexDupes names else names
  if ¬ names.Nodup then .error .valueError else convert native binary nested (names.zip arrs)

end Verif.FitsTable
