/-
Model of reading ARRAY objects that are text: `pdr/loaders/table.py` 37-64 with `pdr/loaders/queries.py` 642-651.
-/
import Verif.Model.Image
import Verif.Model.Datatypes
import Verif.Model.Float

namespace Verif.AsciiArray
open Verif.Py Verif.Image Verif.Datatypes

/-- `\d` in a regular expression and what `float` takes for a digit. Simplification: other scripts' digits are left out. -/
def isDig (c : Char) : Bool := '0' ≤ c && c ≤ '9'

/-- `[+-]` -/
def isSign (c : Char) : Bool := c = '+' || c = '-'

/-- the match of `\d+\.?\d*` (table.py 56) at the beginning of a text, and the rest -/
def unsignedToken (s : Str) : Option (Str × Str) :=
  match s.takeWhile isDig with
  | [] => none
  | d :: ds =>
    match s.dropWhile isDig with
    | '.' :: r => some ((d :: ds) ++ '.' :: r.takeWhile isDig, r.dropWhile isDig)
    | r => some (d :: ds, r)

/-- the match of `[+-]?\d+\.?\d*` (table.py 56) at the beginning of a text, and the rest. (Without a digit after it a sign
is not matched.) -/
def token (s : Str) : Option (Str × Str) :=
  match s with
  | [] => none
  | c :: r =>
    if isSign c then (unsignedToken r).map (fun p => (c :: p.1, p.2)) else unsignedToken (c :: r)

/-- `re.findall(r"[+-]?\d+\.?\d*", text)` (table.py 56): the first argument bounds the number of steps -/
def findallFuel : Nat → Str → List Str
  | 0, _ => []
  | _ + 1, [] => []
  | n + 1, c :: r =>
    match token (c :: r) with
    | some (t, rest) => t :: findallFuel n rest
    | none => findallFuel n r

/-- table.py 56. Every step takes at least one character. -/
def findall (s : Str) : List Str := findallFuel s.length s

/-- the number a string of digits stands for -/
def digits (s : Str) : Nat := s.foldl (fun a c => a * 10 + (c.toNat - 48)) 0

/-- the number a token stands for, before rounding -/
def exactValue (t : Str) : ℚ :=
  let body := if t.head?.any isSign then t.tail else t
  let whole := body.takeWhile (· ≠ '.')
  let frac := (body.dropWhile (· ≠ '.')).drop 1
  let v : ℚ := (digits whole : ℚ) + (digits frac : ℚ) / 10 ^ frac.length
  if t.head? = some '-' then -v else v

/-- `float(token)` (table.py 56): correctly rounded, `none` where it is infinite -/
def pyFloat (R : Float.Rounding Float.double) (t : Str) : Option ℚ :=
  if |exactValue t| < Float.limit Float.double then some (R.fl (exactValue t)) else none

/-- an element of the array. `text` are the byte strings of an `S` dtype. -/
inductive Elem
  | real (x : Option ℚ)
  | int (n : Int)
  | text (s : Str)

/-- `array.astype(dtype)` (table.py 61-63), one element. `repr` is numpy's shortest text of a double, which is not
modelled; the texts are cut to the size of the dtype. Integers are cut towards zero (where the result does not fit into
the dtype, numpy's result depends on the machine: not modelled). Void dtypes cannot be converted to. -/
def astype (Rd : Float.Rounding Float.double) (Rs : Float.Rounding Float.single) (repr : Option ℚ → Str) (d : Dtype)
    (x : Option ℚ) : Except PyErr Elem :=
  match d.kind with
  | .float =>
    if d.size = 4 then
      match x with
      | some v => .ok (.real (if |v| < Float.limit Float.single then some (Rs.fl v) else none))
      | none => .ok (.real none)
    else .ok (.real (x.map Rd.fl))
  | .int | .uint =>
    match x with
    | some v => .ok (.int (if 0 ≤ v then v.floor else -(-v).floor))
    | none => .error .runtimeWarning
  | .bytes => .ok (.text ((repr x).take d.size))
  | .void => .error .typeError

/-- what the label says of an ARRAY: INTERCHANGE_FORMAT, AXIS_ITEMS, DATA_TYPE with BYTES -/
structure Block where
  interchange : Option Str
  axisItems : List Nat
  dataType : Option (Str × Nat)

/-- table.py 58-64, for the numbers found. The `except` clause of 57-58 is never reached: every match of the expression is
read by `float`. -/
def shaped (Rd : Float.Rounding Float.double) (Rs : Float.Rounding Float.single) (repr : Option ℚ → Str) (b : Block)
    (xs : List (Option ℚ)) : Except PyErr (Arr Elem) :=
  match (Arr.ofList xs).reshape b.axisItems with
  | .error e => .error e
  | .ok _ =>
    match b.dataType with
    | none => (Arr.ofList (xs.map .real)).reshape b.axisItems
    | some (t, n) =>
      match sampleTypes t n true with
      | .error e => .error e
      | .ok code =>
        match npDtype code with
        | none => .error .typeError
        | some d =>
          match xs.mapM (astype Rd Rs repr d) with
          | .error e => .error e
          | .ok es => (Arr.ofList es).reshape b.axisItems

/-- table.py 37-64 `read_array` where the INTERCHANGE_FORMAT is not BINARY (which is `ImageFile.arrayFile`): the whole file is
read as text, wherever the label says that the object begins (`start` is not used). Decoding of the bytes and
universal newlines are left to `open`. -/
def readText (Rd : Float.Rounding Float.double) (Rs : Float.Rounding Float.single) (repr : Option ℚ → Str) (fileText : Str)
    (b : Block) (_start : Int) : Except PyErr (Arr Elem) :=
  shaped Rd Rs repr b ((findall fileText).map (pyFloat Rd))

/-- table.py 41, 52: which way an ARRAY is read; `bin` is the other way -/
def readArray (Rd : Float.Rounding Float.double) (Rs : Float.Rounding Float.single) (repr : Option ℚ → Str) (fileText : Str)
    (bin : Except PyErr (Arr Elem)) (b : Block) (start : Int) : Except PyErr (Arr Elem) :=
  if b.interchange = some c!"BINARY" then bin else readText Rd Rs repr fileText b start

end Verif.AsciiArray
