/-
Specification of the scaling of PDS4 integer data.
-/
import Verif.Model.Pds4Scale

namespace Verif.Pds4Scale.Spec
open Verif.NumPy

/-- `x` is a value of the dtype; `object` holds every integer -/
def Holds : DType → Int → Prop
  | some t, x => lo t ≤ x ∧ x ≤ hi t
  | none, _ => True

/-- one of the eight integer dtypes, or object -/
def Known (d : DType) : Prop := ∀ t, d = some t → t ∈ IntType.all

/-- a value that stands for something else than a measurement (a `valid_` constant is a bound, not such a value) -/
def IsSpecial (specials : Option (List (List Char × Int))) (x : Int) : Prop :=
  ∃ l, specials = some l ∧ ∃ name, (name, x) ∈ l ∧ ¬ "valid_".toList <+: name

/-- the scaled value of an element -/
noncomputable def scaledValue (scale offset : Option Int) (specials : Option (List (List Char × Int))) (e : Int × Bool) : Int :=
  open Classical in
  if e.2 = true ∨ IsSpecial specials e.1 then e.1 else e.1 * scale.getD 1 + offset.getD 0

end Verif.Pds4Scale.Spec
