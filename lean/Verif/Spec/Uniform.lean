/-
Specification of Uniformly_Sampled fields.
-/
import Verif.Model.Uniform

namespace Verif.Uniform.Spec
open Verif.Py Verif.Uniform Verif.Float

/-- the number given in the label is `p`: an integer (up to 2^53 in size) or a double -/
def Holds (x : Num) (p : ℚ) : Prop := (∃ n : Int, x = .int n ∧ p = n ∧ |n| ≤ 2 ^ 53) ∨ x = .real (some p)

/-- integers that 64-bit integers cannot hold: below -2^63 with a negative one among them, or above 2^64-1 -/
def Beyond64 (a b : Int) : Prop :=
  2 ^ 64 ≤ max |a| |b| ∨ (2 ^ 63 ≤ max |a| |b| ∧ min a b < 0)

/-- linear sampling is what a label without a scale, or with the scale in any letter case, asks for -/
def IsLinear {V : Type} (s : Sampling V) : Prop := s.scale = none ∨ ∃ t, s.scale = some t ∧ lower t = c!"linear"

/-- the cell of a table shows this number -/
inductive Shows : Num → Pds4Table.Cell → Prop
  | int (n : Int) : Shows (.int n) (.elem (.int n))
  | real (x : Option ℚ) : Shows (.real x) (.elem (.real x))

end Verif.Uniform.Spec
