/-
Model of the values of Uniformly_Sampled fields of PDS4 tables: `pdr/pds4_tools/reader/read_tables.py` 81-185.
-/
import Verif.Model.Pds4Scale
import Verif.Model.Pds4Table
import Verif.Model.Float
import Mathlib.Analysis.SpecialFunctions.Pow.Real
import Mathlib.Analysis.SpecialFunctions.Log.Base

namespace Verif.Uniform
open Verif.Py

/-- The operations on numbers that the function uses. `store` is the assignment to an element of the NumPy array. -/
structure Ops (V : Type) where
  ofNat : Nat → V
  add : V → V → Except PyErr V
  mul : V → V → Except PyErr V
  pow : V → V → Except PyErr V
  div : V → V → Except PyErr V
  log10 : V → Except PyErr V
  store : V → Except PyErr V

/-- what the label says: `scale`, `first_value`, `last_value`, `interval`, `base` (read_tables.py 105-118) -/
structure Sampling (V : Type) where
  scale : Option Str
  first : V
  last : V
  interval : V
  base : Option V

variable {V : Type}

/-- read_tables.py 138-145: linear sampling, `n` records from `cur` on -/
def linear (O : Ops V) (step : V) : Nat → V → Except PyErr (List V)
  | 0, _ => .ok []
  | n + 1, cur => do
    let x ← O.store cur
    let next ← O.add cur step
    let xs ← linear O step n next
    return x :: xs

/-- read_tables.py 158-159: one value of logarithmic sampling -/
def logValue (O : Ops V) (first step : V) (j : Nat) : Except PyErr V := do
  let p ← O.pow step (O.ofNat j)
  let v ← O.mul first p
  O.store v

/-- read_tables.py 148-159: logarithmic sampling -/
def logarithmic (O : Ops V) (first step : V) (n : Nat) : Except PyErr (List V) := (List.range n).mapM (logValue O first step)

/-- read_tables.py 172-174: one value of exponential sampling -/
def expValue (O : Ops V) (step logX1 logBase : V) (j : Nat) : Except PyErr V := do
  let m ← O.mul (O.ofNat j) step
  let s ← O.add logX1 m
  let l ← O.log10 s
  let v ← O.div l logBase
  O.store v

/-- read_tables.py 162-174: exponential sampling -/
def exponential (O : Ops V) (base first step : V) (n : Nat) : Except PyErr (List V) := do
  let logX1 ← O.pow base first
  let logBase ← O.log10 base
  (List.range n).mapM (expValue O step logX1 logBase)

/-- read_tables.py 105-110: the scale, in small letters; linear if the label has none -/
def scaleOf (s : Sampling V) : Str :=
  match s.scale with
  | none => c!"linear"
  | some t => lower t

/-- read_tables.py 138-174. For any other scale the elements stay what `np.empty` has them: `memory`. -/
def filled (O : Ops V) (memory : Nat → V) (s : Sampling V) (n : Nat) : Except PyErr (List V) :=
  if scaleOf s = c!"linear" then linear O s.interval n s.first
  else if scaleOf s = c!"logarithmic" then logarithmic O s.first s.interval n
  else if scaleOf s = c!"exponential" then
    match s.base with
    | none => .error .keyError
    | some b => exponential O b s.first s.interval n
  else .ok ((List.range n).map memory)

/-- read_tables.py 81-185 `_make_uniformly_sampled_field` for `n` records. The comparison of the last value with the one of the
label (180-183) only gives a warning, but `data[-1]` needs a record. -/
def sampled (O : Ops V) (memory : Nat → V) (s : Sampling V) (n : Nat) : Except PyErr (List V) :=
  match filled O memory s n with
  | .error e => .error e
  | .ok vs => if n = 0 then .error .indexError else .ok vs

/-! ### Python's numbers -/

/-- a Python `int`, or a `float` (`none` is infinite or not a number) -/
inductive Num
  | int (n : Int)
  | real (x : Option ℚ)

open Verif.Float

/-- rounding of an exact result: infinite from `limit` on -/
def toDouble (R : Rounding double) (x : ℚ) : Option ℚ := if |x| < limit double then some (R.fl x) else none

/-- `float(x)`: for integers that are too large an OverflowError -/
def asFloat (R : Rounding double) : Num → Except PyErr (Option ℚ)
  | .real x => .ok x
  | .int n => if |(n : ℚ)| < limit double then .ok (some (R.fl n)) else .error .overflowError

/-- an operation on two floats. Simplification: any operand that is not finite gives a result that is not finite. -/
def floatOp (R : Rounding double) (f : ℚ → ℚ → ℚ) (a b : Option ℚ) : Option ℚ :=
  match a, b with
  | some x, some y => toDouble R (f x y)
  | _, _ => none

/-- Python's `+` and `*`: exact for integers, rounded if one of the numbers is a float -/
def arith (R : Rounding double) (f : ℚ → ℚ → ℚ) (g : Int → Int → Int) : Num → Num → Except PyErr Num
  | .int a, .int b => .ok (.int (g a b))
  | a, b =>
    match asFloat R a, asFloat R b with
    | .ok x, .ok y => .ok (.real (floatOp R f x y))
    | .error e, _ => .error e
    | _, .error e => .error e

/-- What is left to the C library: `**` where it is not a power of integers with an exponent of at least 0, and `log10`. -/
structure Libm where
  pow : Num → Num → Except PyErr Num
  log10 : Num → Except PyErr Num

/-- Python's `**` -/
def pyPow (L : Libm) : Num → Num → Except PyErr Num
  | .int a, .int b => if 0 ≤ b then .ok (.int (a ^ b.toNat)) else L.pow (.int a) (.int b)
  | a, b => L.pow a b

/-- Python's `/` -/
def pyDiv (R : Rounding double) (a b : Num) : Except PyErr Num :=
  match asFloat R a, asFloat R b with
  | .error e, _ => .error e
  | _, .error e => .error e
  | .ok _, .ok (some 0) => .error .zeroDivision
  | .ok x, .ok y => .ok (.real (floatOp R (· / ·) x y))

/-- read_tables.py 120-135: whether the dtype is `object`: the first and the last value are integers, and the smallest
integer type for them is `object`. -/
def asObject : Num → Num → Bool
  | .int a, .int b => decide (Pds4Scale.typeFor none (min a b) (max a b) = none)
  | _, _ => false

/-- assignment to an element of an array of doubles, or of objects -/
def storeNum (R : Rounding double) (object : Bool) (x : Num) : Except PyErr Num :=
  if object then .ok x
  else match asFloat R x with
    | .error e => .error e
    | .ok y => .ok (.real y)

/-- the numbers of Python, for an array of this dtype -/
def pyOps (R : Rounding double) (L : Libm) (object : Bool) : Ops Num where
  ofNat j := .int j
  add := arith R (· + ·) (· + ·)
  mul := arith R (· * ·) (· * ·)
  pow := pyPow L
  div := pyDiv R
  log10 := L.log10
  store := storeNum R object

/-- read_tables.py 81-185 with Python's numbers -/
def uniformField (R : Rounding double) (L : Libm) (memory : Nat → Num) (s : Sampling Num) (n : Nat) : Except PyErr (List Num) :=
  sampled (pyOps R L (asObject s.first s.last)) memory s n

/-! ### exact arithmetic -/

open Classical in
/-- the same operations on real numbers, without rounding -/
noncomputable def realOps : Ops ℝ where
  ofNat j := j
  add a b := .ok (a + b)
  mul a b := .ok (a * b)
  pow a b := .ok (a ^ b)
  div a b := if b = 0 then .error .zeroDivision else .ok (a / b)
  log10 a := if a ≤ 0 then .error .valueError else .ok (Real.logb 10 a)
  store a := .ok a

/-- a value in the table: floats and integers of an array of objects -/
def cellOf : Num → Pds4Table.Cell
  | .int n => .elem (.int n)
  | .real x => .elem (.real x)

end Verif.Uniform
