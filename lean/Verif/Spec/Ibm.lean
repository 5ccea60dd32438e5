/-
Specification of IBM System/360 floating point numbers.
-/
import Verif.Model.Ibm

namespace Verif.Ibm.Spec

/-- the value of a word of `n` bits: one sign bit, seven bits of exponent (excess 64, base 16), and a
fraction of `n - 8` bits -/
def ibmValue (n w : Nat) : ℚ :=
  (-1) ^ (w / 2 ^ (n - 1)) * (((w % 2 ^ (n - 8) : Nat) : ℚ) / 2 ^ (n - 8)) * 16 ^ (((w / 2 ^ (n - 8) % 128 : Nat) : Int) - 64)

end Verif.Ibm.Spec
