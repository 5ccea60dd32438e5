/-
Specification of the tables in FITS files as data frames.
-/
import Verif.Model.FitsTable

namespace Verif.FitsTable.Spec
open Verif.Py
open Verif.Bits (Order)

/-- a word of an element as it is meant: a number of bits with their value as an unsigned integer (what the integer, real or
half of a complex number is follows from these), or just bytes -/
inductive Word
  | bits (bytes value : Nat)
  | raw (b : Bytes)
  deriving DecidableEq

/-- the value of the bytes, most significant byte first -/
def unsigned : Bytes → Nat
  | [] => 0
  | b :: bs => b.toNat * 256 ^ bs.length + unsigned bs

/-- what an element of an array with this byte order means -/
def means (o : Option Order) (e : Elem) : List Word :=
  match o with
  | none => e.map .raw
  | some .big => e.map (fun w => .bits w.length (unsigned w))
  | some .little => e.map (fun w => .bits w.length (unsigned w.reverse))

/-- A column of the result that should be there: its name, and the element of each record it should show. -/
structure Wanted where
  name : Str
  arr : Arr
  elem : Nat

/-- The columns for a field: one with its name, or, if it has several elements, one for each with its number appended. -/
def wanted (name : Str) (a : Arr) : List Wanted :=
  match a.shape with
  | [] => [⟨name, a, 0⟩]
  | [n] => (List.range n).map (fun k => ⟨name ++ c!"_" ++ natStr k, a, k⟩)
  | n :: m :: _ => (List.range n).flatMap (fun i => (List.range m).map (fun j => ⟨name ++ c!"_" ++ natStr (i * m + j), a, i * m + j⟩))

/-- the column shows, in each record, the element it should -/
def Shows (c : Column) (w : Wanted) : Prop :=
  c.name = w.name ∧ c.cells.map (fun e => some (means c.order e)) = w.arr.recs.map (fun r => (r[w.elem]?).map (means w.arr.order))

/-- a field that NumPy and pandas can hold: a single element, a row of other than one, or a rectangle; each record has all of
them -/
structure Fits (a : Arr) : Prop where
  shape : a.shape = [] ∨ (∃ n, n ≠ 1 ∧ a.shape = [n]) ∨ ∃ n m, a.shape = [n, m]
  full : ∀ r ∈ a.recs, r.length = Image.prod a.shape

end Verif.FitsTable.Spec
