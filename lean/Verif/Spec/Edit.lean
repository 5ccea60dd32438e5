/-
Specification vocabulary for editing nested mappings: a mapping as the list of its parameters with
their full paths, and the list of the paths of its blocks.
-/
import Verif.Model.MultiDict

namespace Verif.Pvl.Spec
open Verif.Py

mutual
/-- Every parameter with the keys leading to it (outermost first), in document order. -/
def params {α : Type} : MDict α → List (List Str × α)
  | [] => []
  | (k, t) :: rest => paramsT k t ++ params rest
/-- The parameters at and below the entry with key `k`. -/
def paramsT {α : Type} (k : Str) : Tree α → List (List Str × α)
  | .leaf a => [([k], a)]
  | .node kids => (params kids).map (fun p => (k :: p.1, p.2))
end

mutual
/-- The path of every block, in document order (outer blocks before the blocks in them). -/
def blocks {α : Type} : MDict α → List (List Str)
  | [] => []
  | (k, t) :: rest => blocksT k t ++ blocks rest
/-- The blocks at and below the entry with key `k`. -/
def blocksT {α : Type} (k : Str) : Tree α → List (List Str)
  | .leaf _ => []
  | .node kids => [k] :: (blocks kids).map (fun p => k :: p)
end

end Verif.Pvl.Spec
