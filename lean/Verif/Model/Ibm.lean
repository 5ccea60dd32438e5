/-
Model of IBM System/360 floating point numbers: `pdr/np_utils.py` 104-134 and `pdr/pd_utils.py` 321-351.
-/
import Verif.Model.Float
import Verif.Model.Py

namespace Verif.Ibm
open Verif.Py Verif.Float

/-- np_utils.py 104-118 `ibm_to_np`, one element. Integers are converted to float64 before they are divided;
every operation rounds. Simplification: the sign of a zero is not modelled; `16 ** x` is taken to be
correctly rounded. -/
def ibmToNp (R : Rounding double) (sreg ereg mmask : Nat) (w : Nat) : ℚ :=
  let sign : Int := 1 - 2 * ((w >>> sreg &&& 1 : Nat) : Int)
  let exponent := R.fl (16 ^ (((w >>> ereg &&& 0x7f : Nat) : Int) - 64))
  let mantissa := R.fl (R.fl ((w &&& mmask : Nat) : ℚ) / R.fl (2 ^ ereg))
  R.fl (R.fl (sign * mantissa) * exponent)

/-- np_utils.py 121-126 `ibm32_to_np_f32` -/
def ibm32 (R : Rounding double) (w : Nat) : ℚ := ibmToNp R 31 24 0x00ffffff w

/-- np_utils.py 129-134 `ibm64_to_np_f64` -/
def ibm64 (R : Rounding double) (w : Nat) : ℚ := ibmToNp R 63 56 0x00ffffffffffffff w

/-- `x.max()` of a list that is not empty -/
def maximum (x : ℚ) (xs : List ℚ) : ℚ := xs.foldl max x

/-- pd_utils.py 337-347: a column (of magnitudes `a :: as`) has values that are too large or too small for float32 -/
def wide (R : Rounding double) (a : ℚ) (as : List ℚ) : Bool :=
  let big := decide (largest single < maximum a as)
  let small := (a :: as).any (fun x => decide (0 < x) && decide (x < R.fl (1 / 10 ^ 44)))
  big || small

/-- pd_utils.py 321-351 `convert_ibm_reals`, one column of 4-byte reals: converted to float64, and on to
float32 if nothing is too large or too small. -/
def convertShort (R : Rounding double) (R' : Rounding single) (ws : List Nat) : Except PyErr (List ℚ) :=
  let converted := ws.map (ibm32 R)
  match converted.map abs with
  | [] => .error .valueError                       -- `max()` of an empty array
  | a :: as => if wide R a as then .ok converted else .ok (converted.map R'.fl)

/-- pd_utils.py 321-351, one column of 8-byte reals -/
def convertLong (R : Rounding double) (ws : List Nat) : List ℚ := ws.map (ibm64 R)

end Verif.Ibm
