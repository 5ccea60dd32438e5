/-
Model of reading images, qubes and binary arrays from the bytes of a file: `pdr/loaders/image.py` 18-52,
`pdr/loaders/queries.py` 44-55 and 201-238, 642-664, `pdr/loaders/table.py` 37-64, composed with the models of image
shapes (Model/Image), data types (Model/Datatypes) and of how numpy reads records (Model/Table).
-/
import Verif.Model.Image
import Verif.Model.Table

namespace Verif.ImageFile
open Verif.Py Verif.Bits Verif.Datatypes Verif.Image Verif.Table

/-- an element of an array. `real`: `none` is not a finite number. -/
inductive Elem
  | int (n : Int)
  | real (x : Option ℚ)
  | bytes (b : Bytes)

/-- the elements of an array of a dtype -/
def elems (d : Dtype) (cells : List Bytes) : List Elem :=
  match decodeAll d cells with
  | .ints _ vs => vs.map .int
  | .floats _ vs => vs.map .real
  | .bytes vs => vs.map .bytes
  | _ => []

/-- A file. `vax` is `vax.from_vax32`, one element, which is not modelled. -/
structure Input where
  compressed : Bool
  file : Bytes
  vax : Elem → Elem

/-- image.py 18-39 `read_image` with 42-52 `make_format_specifications`, for a dtype code. (`f.seek(start_byte)` and then
`np_from_buffered_io` without an offset.) -/
def load (src : Input) (start : Nat) (code : Str) (isVax : Bool) (p : Props) : Except PyErr (Loaded Elem) :=
  match checkFixValidity p with
  | .error e => .error e
  | .ok () => match npDtype code with
    | none => .error .typeError
    | some d => match readRecords src.compressed src.file start d.size (pixels p) with
      | .error e => .error e
      | .ok cells => readImage (if isVax then src.vax else id) (elems d cells) p

/-- an IMAGE: `im_sample_type` (queries.py 201-216), `generic_image_properties`, `read_image`. Without SAMPLE_TYPE there is
no dtype code, which is a TypeError in `make_format_specifications`. -/
def imageFile (src : Input) (b : ImageBlock) (sampleType : Str) (start : Nat) : Except PyErr (Loaded Elem) :=
  if sampleType = [] then .error .typeError
  else match sampleTypes sampleType (b.sampleBits / 8) true with
    | .error e => .error e
    | .ok code => match imageProps b with
      | .error e => .error e
      | .ok p => load src start code (decide (sampleType = c!"VAX_REAL")) p

/-- a QUBE: queries.py 44-82 `generic_qube_properties` asks for the `struct` code of the type -/
def qubeFile (src : Input) (b : QubeBlock) (itemType : Str) (start : Nat) : Except PyErr (Loaded Elem) :=
  match sampleTypes itemType b.itemBytes false with
  | .error e => .error e
  | .ok code => match qubeProps b with
    | .error e => .error e
    | .ok p => load src start code (decide (itemType = c!"VAX_REAL")) p

/-- image.py 34-39: what is returned for an object of this name -/
def pick (name : Str) (l : Loaded Elem) : Option (Arr Elem) :=
  if contains name c!"PREFIX" then l.prefix?
  else if contains name c!"SUFFIX" then l.suffix?
  else some l.image

/-- image.py 18-39 `read_image` for an object of this name (`none` is Python's None) -/
def imageObject (src : Input) (name : Str) (b : ImageBlock) (sampleType : Str) (start : Nat) :
    Except PyErr (Option (Arr Elem)) :=
  match imageFile src b sampleType start with
  | .error e => .error e
  | .ok l => .ok (pick name l)

/-- table.py 37-64 `read_array` with queries.py 273-280 and 642-664, for a BINARY array without subobjects. The dtype is
a string here: for compressed files, `dtype.itemsize` is an AttributeError. -/
def arrayFile (src : Input) (axisItems : List Nat) (dataType : Str) (bytes : Nat) (start : Nat) : Except PyErr (Arr Elem) :=
  match sampleTypes dataType bytes true with
  | .error e => .error e
  | .ok code =>
    if src.compressed then .error .attributeError
    else match npDtype code with
      | none => .error .typeError
      | some d => match readRecords false src.file start d.size (prod axisItems) with
        | .error e => .error e
        | .ok cells => (Arr.ofList (elems d cells)).reshape axisItems

end Verif.ImageFile
