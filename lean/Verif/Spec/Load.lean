/-
Specification of lazy loading.
-/
import Verif.Model.Load

namespace Verif.Load.Spec
open Verif.Load

/-- the name list `b` is `a` with names that were not in it appended, each once -/
def Grows (a b : List Str) : Prop := ∃ extra, b = a ++ extra ∧ extra.Nodup ∧ ∀ n ∈ extra, n ∉ a

/-- the last value a loader result gives for a name (None does not count) -/
def given {V : Type} (l : List (Str × Option V)) (name : Str) : Option V :=
  (l.filterMap (fun kv => if kv.1 = name then kv.2 else none)).getLast?

end Verif.Load.Spec
