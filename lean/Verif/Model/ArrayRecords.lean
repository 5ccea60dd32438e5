/-
Model of reading BINARY ARRAYs with subobjects (ELEMENTs, COLLECTIONs): `pdr/loaders/queries.py` 642-664,
`pdr/pd_utils.py` 157-239, `pdr/loaders/table.py` 37-52.
-/
import Verif.Model.ImageFile

namespace Verif.ArrayRecords
open Verif.Py Verif.Format Verif.Datatypes Verif.Image

/-- the entries of an ARRAY: `b.tableName` is its NAME, `b.defs` its subobjects, `axisItems` its AXIS_ITEMS -/
structure Block where
  b : Table.Block
  axisItems : List Nat

/-- the field before the first field of a block -/
def before (fs : List Fld) (name : Option Str) : Option Fld :=
  match fs.findIdx (fun f => f.blockName = name) with
  | 0 => none
  | i + 1 => fs[i]?

/-- pd_utils.py 207-239 `construct_nested_array_format` without SB_OFFSET, which ARRAYs do not have (`compute_offsets` is not
called for them): a KeyError as soon as a block follows the placeholder of an ARRAY with AXIS_ITEMS -/
def nested (fs : List Fld) : Bool :=
  ((blockNames (fs.map (fun f => ⟨f, 0⟩))).drop 1).any (fun name => match name with
    | none => false
    | some n => n ≠ [] && match before fs (some n) with
      | none => false
      | some f => f.axisItems.isSome)

/-- where fields of these sizes start, one directly after the other from `at_` on -/
def packed : Nat → List Nat → List Nat
  | _, [] => []
  | at_, n :: ns => at_ :: packed (at_ + n) ns

/-- queries.py 642-664 `parse_array_structure`: the names, dtypes and offsets of the fields. Simplification: of several errors
among the types, the first in label order is reported. -/
def parseStructure (a : Block) : Except PyErr (List (Str × Dtype × Nat)) :=
  let fs := Table.structureOf a.b
  match (fs.map (fun f => ⟨f, 0⟩)).mapM Table.typed with
  | .error e => .error e
  | .ok cols =>
    if nested fs then .error .keyError
    else if ¬ (fs.map (·.name)).Nodup then .error .valueError
    else .ok ((fs.map (·.name)).zip ((cols.map (·.dt)).zip (packed 0 (cols.map (·.dt.size)))))

/-- an element of a structured array: its fields -/
abbrev Record := List (Str × ImageFile.Elem)

/-- numpy's view of the bytes of a record -/
def recordOf (fields : List (Str × Dtype × Nat)) (r : Bytes) : Record :=
  fields.flatMap (fun f => (ImageFile.elems f.2.1 [(r.drop f.2.2).take f.2.1.size]).map (fun e => (f.1, e)))

/-- table.py 37-52 `read_array` -/
def readArray (compressed : Bool) (file : Bytes) (a : Block) (start : Nat) : Except PyErr (Arr Record) :=
  match parseStructure a with
  | .error e => .error e
  | .ok fields =>
    match Table.readRecords compressed file start ((fields.map (·.2.1.size)).sum) (prod a.axisItems) with
    | .error e => .error e
    | .ok recs => (Arr.ofList (recs.map (recordOf fields))).reshape a.axisItems

end Verif.ArrayRecords
