/-
Specifications for editing and unpacking nested multi-valued mappings.
-/
import Verif.Spec.Pvl
import Verif.Model.MultiDict

namespace Verif.Pvl.Spec
open Verif.Py

mutual
/-- Apply `f` to every leaf and nothing else. -/
def mapLeavesT {α β : Type} (f : α → β) : Tree α → Tree β
  | .leaf a => .leaf (f a)
  | .node kids => .node (mapLeaves f kids)
/-- Apply `f` to every leaf and nothing else. -/
def mapLeaves {α β : Type} (f : α → β) : MDict α → MDict β
  | [] => []
  | (k, t) :: rest => (k, mapLeavesT f t) :: mapLeaves f rest
end

mutual
/-- All leaf values, in document order. -/
def leavesT {α : Type} : Tree α → List α
  | .leaf a => [a]
  | .node kids => leaves kids
/-- All leaf values, in document order. -/
def leaves {α : Type} : MDict α → List α
  | [] => []
  | (_, t) :: rest => leavesT t ++ leaves rest
end

mutual
/-- Forget every key (but keep leaves, nesting and order). -/
def skeletonT {α : Type} : Tree α → Tree α
  | .leaf a => .leaf a
  | .node kids => .node (skeleton kids)
/-- Forget every key (but keep leaves, nesting and order). -/
def skeleton {α : Type} : MDict α → MDict α
  | [] => []
  | (_, t) :: rest => ([], skeletonT t) :: skeleton rest
end

/-- Replace the occurrences of `P` in a list of names by `P_i, P_(i+1), ...` in order. -/
def number (P : Str) : Nat → List Str → List Str
  | _, [] => []
  | i, k :: ks =>
    if k = P then (P ++ '_' :: Nat.toDigits 10 i) :: number P (i + 1) ks else k :: number P i ks

/-- A pointer is worth numbering: it is duplicated and not a STRUCTURE / PDS_OBJECT pointer. -/
def Numbered (all : List Str) (p : Str) : Bool :=
  1 < all.count p && !contains p c!"STRUCTURE" && !contains p c!"PDS_OBJECT"

/-- The names a duplicated pointer `p` renames: itself and, unless it is a DESCRIPTION pointer, the
object definition it points to. -/
def targets (p : Str) : List Str :=
  if contains p c!"DESCRIPTION" then [p] else [p, p.drop 1]

/-- Document-order flattening of packed PDS4 labels: lists disappear, their members become
consecutive entries of the same key. -/
inductive Unpacks {α : Type} : List (Str × Packed α) → MDict α → Prop
  | nil : Unpacks [] []
  | leaf {k a rest out} : Unpacks rest out → Unpacks ((k, .leaf a) :: rest) ((k, .leaf a) :: out)
  | map {k kids sub rest out} : Unpacks kids sub → Unpacks rest out →
      Unpacks ((k, .map kids) :: rest) ((k, .node sub) :: out)
  | list {k xs sub rest out} : Unpacks (xs.map (fun x => (k, x))) sub → Unpacks rest out →
      Unpacks ((k, .list xs) :: rest) (sub ++ out)

mutual
/-- All scalar leaves of a packed label, in document order. -/
def packedLeaves {α : Type} : Packed α → List α
  | .leaf a => [a]
  | .list xs => packedLeavesL xs
  | .map kids => packedLeavesM kids
/-- All scalar leaves of a packed label, in document order. -/
def packedLeavesL {α : Type} : List (Packed α) → List α
  | [] => []
  | x :: xs => packedLeaves x ++ packedLeavesL xs
/-- All scalar leaves of a packed label, in document order. -/
def packedLeavesM {α : Type} : List (Str × Packed α) → List α
  | [] => []
  | (_, x) :: xs => packedLeaves x ++ packedLeavesM xs
end

end Verif.Pvl.Spec

namespace Verif.Pvl.Spec
open Verif.Py

/-- `numberAll T [] names`: every name in `T` gets the suffix `_j`, where `j` is how many times it
has already occurred; every other name stays as it is. -/
def numberAll (T : List Str) : List Str → List Str → List Str
  | _, [] => []
  | seen, k :: ks =>
    (if k ∈ T then k ++ '_' :: Nat.toDigits 10 (seen.count k) else k) :: numberAll T (k :: seen) ks

/-- The names that numbering changes in a label with key list `ks`: every pointer (name beginning
with `^`) that occurs more than once and is not a STRUCTURE or PDS_OBJECT pointer and, unless it is
a DESCRIPTION pointer, the object name it points to. -/
def IsTarget (ks : List Str) (x : Str) : Prop :=
  ∃ rest, ('^' :: rest) ∈ ks ∧ Numbered ks ('^' :: rest) = true ∧ x ∈ targets ('^' :: rest)

end Verif.Pvl.Spec
