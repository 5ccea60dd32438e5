/-
Specification of metadata lookup.
-/
import Verif.Spec.Pvl

namespace Verif.Meta.Spec
open Verif.Pvl Verif.Pvl.Spec

/-- `v` is the first value of `key` in a label: the first entry of that name on this level; or, if there is
none, the first value of `key` in the first block that has one anywhere inside. -/
inductive First {α : Type} (key : Str) : MDict α → Tree α → Prop
  | here {pre post : MDict α} {v : Tree α} : key ∉ pre.map Prod.fst → First key (pre ++ (key, v) :: post) v
  | inside {pre post kids : MDict α} {name : Str} {v : Tree α} :
      key ∉ (pre ++ (name, .node kids) :: post).map Prod.fst → key ∉ keys pre → First key kids v →
      First key (pre ++ (name, .node kids) :: post) v

end Verif.Meta.Spec
