/-
Specification of image files: elements show stored values.
-/
import Verif.Spec.Table
import Verif.Spec.Image
import Verif.Model.ImageFile

namespace Verif.ImageFile.Spec
open Verif.Py Verif.Bits Verif.Datatypes Verif.Datatypes.Spec Verif.Image Verif.Image.Spec Verif.Table.Spec

/-- the element is this value -/
inductive Is : Elem → Value → Prop
  | int {n : Int} : Is (.int n) (.int n)
  | real {x : ℚ} : Is (.real (some x)) (.real x)
  | notFinite : Is (.real none) .notFinite
  | bytes {b : Bytes} : Is (.bytes b) (.bytes b)

/-- The element number `i` of the data from byte `start` on, elements of the dtype `d`, is stored as `v`. -/
def At (file : Bytes) (start : Nat) (d : Dtype) (i : Nat) (v : Value) : Prop :=
  Stored d (bytesAt file (start + i * d.size) d.size) v

/-- The array has element `v` at `ix`. -/
def Has (a : Arr Elem) (ix : List Nat) (v : Value) : Prop := ∃ e, a.get ix = some e ∧ Is e v

/-- VAX reals are converted by a library that is not modelled; IBM reals in images are not converted at all. -/
def Direct (t : Str) : Prop := underscored t ≠ c!"VAX_REAL" ∧ underscored t ≠ c!"IBM_REAL"

/-- position of an index in an array stored with the last index fastest -/
def lastFastest (shape ix : List Nat) : Nat := fastestFirst shape.reverse ix.reverse

/-- an index within a shape -/
def Within (shape ix : List Nat) : Prop := List.Forall₂ (fun n i => i < n) shape ix

end Verif.ImageFile.Spec
