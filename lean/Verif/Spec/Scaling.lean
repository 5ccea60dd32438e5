/-
Specification of scaled PDS3 arrays.
-/
import Verif.Model.Scaling

namespace Verif.Scaling.Spec
open Verif.Py Verif.NumPy Verif.Float

/-- NumPy accepts Python integers an integer array's dtype holds, and the dtype of the result is no narrower -/
def Promotes (E : Env) : Prop :=
  ∀ t n, lo t ≤ n → n ≤ hi t → ∃ t', E.prom t n = .ok t' ∧ lo t' ≤ lo t ∧ hi t ≤ hi t' ∧ (1 ≤ t.bits → 1 ≤ t'.bits)

/-- the dtype holds the integer -/
def Fits (t : IntType) (x : Int) : Prop := lo t ≤ x ∧ x ≤ hi t

/-- the values the PDS3 standard and ISIS use for "no data" in arrays of a dtype, as pdr has them -/
def implicitValues : IntType → List Int
  | ⟨true, 16⟩ => [-32768, 32767, -32766, -32767, -32765, -32764]
  | ⟨false, 16⟩ => [0, 65533, 65534, 2, 1, 65535]
  | ⟨true, 32⟩ => [-214743648, 2147483647]
  | ⟨true, 64⟩ => [-214743648, 2147483647]
  | ⟨false, 32⟩ => [4294967293, 4294967294, 0xFF7FFFFB, 0xFF7FFFFD, 0xFF7FFFFC, 0xFF7FFFFE, 0xFF7FFFFF]
  | _ => []

/-- the label declares `x` as the value of the special constant `n` (of a sequence, the first number counts) -/
def Declares (block : Block) (n : Str) (x : ℚ) : Prop :=
  ∃ v : Num, (block n = some (.num v) ∨ ∃ vs, block n = some (.seq (v :: vs))) ∧ v.val = x

def sNULL : Str := "NULL".toList

/-- the special constants of an array of integers: what the label declares, with its value for `NULL` set aside if
pdr's own value for `NULL` is in the array, and pdr's own values for the dtype -/
def SpecialInt (block : Block) (t : IntType) (raw : List (List Int)) (x : Int) : Prop :=
  (∃ n ∈ constantNames, Declares block n x ∧ ¬ (n = sNULL ∧ t = uint16 ∧ 0 ∈ raw.flatten)) ∨ x ∈ implicitValues t

/-- the dtypes of integers pdr has values for -/
def knownInts : List IntType := [uint8, int8, uint16, int16, uint32, int32, int64]

/-- the same for floats: the five values of ISIS (`FF7FFFFB` to `FF7FFFFF`) in float32 arrays, the first of them in
float64 arrays -/
def implicitFloats : FloatType → List ℚ
  | .f32 => [-16777211 * 2 ^ 104, -16777212 * 2 ^ 104, -16777213 * 2 ^ 104, -16777214 * 2 ^ 104, -16777215 * 2 ^ 104]
  | .f64 => [-16777211 * 2 ^ 104]

/-- the special constants of an array of floats (`none`: not finite) -/
def SpecialFloat (block : Block) (w : FloatType) (raw : List (List (Option ℚ))) (x : ℚ) : Prop :=
  (∃ n ∈ constantNames, Declares block n x ∧ ¬ (n = sNULL ∧ some (-16777211 * 2 ^ 104) ∈ raw.flatten)) ∨ x ∈ implicitFloats w

/-- the format of a float dtype -/
def formatOf : FloatType → Format
  | .f32 => single
  | .f64 => double

end Verif.Scaling.Spec
