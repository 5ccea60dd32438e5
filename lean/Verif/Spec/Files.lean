/-
Specification of file lookup.
-/
import Verif.Model.Py

namespace Verif.Files.Spec
open Verif.Py

/-- a name that neither begins nor ends with a dot -/
def Ordinary (n : Str) : Prop := n ≠ [] ∧ n.head? ≠ some '.' ∧ n.getLast? ≠ some '.'

/-- the suffixes of compressed files -/
def Compression (x : Str) : Prop := x = c!".gz" ∨ x = c!".bz2" ∨ x = c!".zip"

/-- a file name with a suffix and a compression suffix after it, in lower case: `x.img.gz` -/
def CompressedName (l : Str) : Prop := ∃ base x, l = base ++ x ∧ '.' ∈ base ∧ Compression x

/-- `n` is the requested name in other letter case, or that and compressed -/
def Variant (request n : Str) : Prop :=
  (lower n = lower request ∧ ¬ CompressedName (lower request)) ∨
  ('.' ∈ request ∧ ∃ x, Compression x ∧ lower n = lower request ++ x)

end Verif.Files.Spec
