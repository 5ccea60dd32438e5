/-
Specification of table format expansion.
-/
import Verif.Model.Format

namespace Verif.Format.Spec

/-- how often an entry occurs: once unless a count above one is declared -/
def copies : Option Nat → Nat
  | some n => max n 1
  | none => 1

mutual
/-- the columns an entry of a definition stands for, in order. `owner` names the definition it belongs to. -/
def columnsOf (owner : Info) : Def → List Fld
  | .column n s b items ib io a =>
    List.replicate (copies items) {
      name := n, startByte := s, bytes := b, itemBytes := ib, itemOffset := io,
      blockName := owner.name, blockReps := owner.reps, blockBytes := owner.bytes,
      attrs := a }
  | .container n _ b r cs => (List.replicate (copies r) (allColumns ⟨some n, r.getD 1, b⟩ cs)).flatten
  | .array n _ b _ cs => allColumns ⟨some n, 1, b⟩ cs
  | .other => []
/-- the columns of a list of entries -/
def allColumns (owner : Info) : List Def → List Fld
  | [] => []
  | d :: ds => columnsOf owner d ++ allColumns owner ds
end

mutual
/-- no ARRAY with a subobject anywhere -/
def NoArray : Def → Prop
  | .column .. => True
  | .container _ _ _ _ cs => NoArrays cs
  | .array .. => False
  | .other => True
/-- no ARRAY with a subobject anywhere -/
def NoArrays : List Def → Prop
  | [] => True
  | d :: ds => NoArray d ∧ NoArrays ds
end

/-- only columns and containers made of columns (no container within a container, no array) -/
def Flat : Def → Prop
  | .column .. => True
  | .container _ _ _ _ cs => ∀ c ∈ cs, (∃ n s b i ib io a, c = .column n s b i ib io a) ∨ c = .other
  | .array .. => False
  | .other => True

/-- `out` is `block` with every pointer replaced, in place, by the (itself expanded) contents of the file
it names -/
inductive Expands {ε φ : Type} (isPtr : ε → Option φ) (load : φ → List ε) : List ε → List ε → Prop
  | nil : Expands isPtr load [] []
  | keep {e es out} : isPtr e = none → Expands isPtr load es out → Expands isPtr load (e :: es) (e :: out)
  | ptr {e es f mid out} : isPtr e = some f → Expands isPtr load (load f) mid → Expands isPtr load es out →
      Expands isPtr load (e :: es) (mid ++ out)

end Verif.Format.Spec
