/-
Specification of where the columns of a table lie in a record.
-/
import Verif.Spec.Format

namespace Verif.Format.Spec
open Verif.Py Verif.Format

/-- a COLUMN as the label gives it -/
structure Col where
  name : Str
  start : Int              -- START_BYTE, counted from 1 within the enclosing object
  bytes : Nat              -- BYTES
  items : Option Nat := none
  itemBytes : Option Nat := none
  itemOffset : Option Nat := none
  attrs : Attrs := {}      -- DATA_TYPE, SCALING_FACTOR, OFFSET

/-- an entry of a table: a column, or a container of columns -/
inductive Entry where
  | col (c : Col)
  | cont (name : Str) (start : Int) (bytes : Nat) (reps : Option Nat) (cols : List Col)

/-- the label's definition of a column -/
def Col.toDef (c : Col) : Def := .column c.name c.start c.bytes c.items c.itemBytes c.itemOffset c.attrs

/-- the label's definition of an entry -/
def Entry.toDef : Entry → Def
  | .col c => c.toDef
  | .cont n s b r cs => .container n s (some b) r (cs.map Col.toDef)

/-- distance from one item to the next -/
def Col.stride (c : Col) : Nat :=
  match c.itemOffset, c.itemBytes with
  | some o, _ => o
  | none, some b => b
  | none, none => 0

/-- size of one item (of the whole column, if it has none) -/
def Col.size (c : Col) : Nat := c.itemBytes.getD c.bytes

/-- name, first byte (from 0, within the record) and size of every value of a column of an object that
starts at byte `base` -/
def Col.layout (base : Int) (c : Col) : List (Str × Int × Nat) :=
  (List.range (copies c.items)).map (fun (i : Nat) => (c.name, base + (c.start - 1) + i * c.stride, c.size))

/-- the values of an entry -/
def Entry.layout (rowPrefix : Int) : Entry → List (Str × Int × Nat)
  | .col c => c.layout rowPrefix
  | .cont _ s b r cs => (List.range (copies r)).flatMap (fun (i : Nat) =>
      cs.flatMap (Col.layout (rowPrefix + (s - 1) + i * b)))

/-- the values of a table, in label order -/
def layout (rowPrefix : Int) (es : List Entry) : List (Str × Int × Nat) := es.flatMap (Entry.layout rowPrefix)

/-- where an entry ends, within the record (for an unrepeated container: where its last column ends) -/
def Entry.endByte : Entry → Int
  | .col c => c.start - 1 + c.bytes
  | .cont _ s _ _ cs => s - 1 + (match cs.getLast? with | some c => c.start - 1 + c.bytes | none => 0)

/-- is the entry a repeated container -/
def Entry.repeated : Entry → Bool
  | .col _ => false
  | .cont _ _ _ r _ => 1 < r.getD 1

/-- container names -/
def contNames : List Entry → List Str
  | [] => []
  | .col _ :: es => contNames es
  | .cont n _ _ _ _ :: es => n :: contNames es

/-- first bytes of the columns that have items, in label order (in the expanded table) -/
def Col.itemStart (base : Int) (c : Col) : List Int :=
  if c.itemBytes.isSome then [base + (c.start - 1)] else []

/-- first bytes of the columns that have items -/
def Entry.itemStarts : Entry → List Int
  | .col c => c.itemStart 0
  | .cont _ s b r cs => (List.range (copies r)).flatMap (fun (i : Nat) =>
      cs.flatMap (Col.itemStart (s - 1 + i * b)))

/-- a column with ITEMS gives ITEM_BYTES; ITEM_OFFSET is at least ITEM_BYTES -/
def Col.Ok (c : Col) : Prop :=
  c.name ≠ c!"PLACEHOLDER_0" ∧ (c.items.isSome → c.itemBytes.isSome) ∧
  (∀ o, c.itemOffset = some o → ∃ b, c.itemBytes = some b ∧ b ≤ o)

/-- columns are sound; containers have columns, a positive repetition count, and a name of their own -/
def Entry.Ok : Entry → Prop
  | .col c => c.Ok
  | .cont n _ _ r cs => (∀ c ∈ cs, c.Ok) ∧ cs ≠ [] ∧ 1 ≤ r.getD 1 ∧ contains n c!"PLACEHOLDER" = false

/-- every container starts directly after an entry that is not itself a repeated container -/
def Adjacent : Entry → List Entry → Prop
  | _, [] => True
  | _, .col c :: es => Adjacent (.col c) es
  | p, .cont n s b r cs :: es => p.repeated = false ∧ s - 1 = p.endByte ∧ Adjacent (.cont n s b r cs) es

/-- A table (its NAME, if it has one, is `table`) that starts with a column, whose containers are not nested, have different names, and start
directly after the entry before them, and whose columns with ITEMS are listed in byte order. -/
structure Regular (table : Option Str) (first : Col) (rest : List Entry) : Prop where
  ok : first.Ok ∧ ∀ e ∈ rest, e.Ok
  names : (contNames rest).Nodup ∧ ∀ n ∈ contNames rest, table ≠ some n
  adjacent : Adjacent (.col first) rest
  sorted : ((Entry.col first :: rest).flatMap Entry.itemStarts).Pairwise (· < ·)

end Verif.Format.Spec
