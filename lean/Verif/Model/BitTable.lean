/-
Model of bit columns in binary tables: `pdr/loaders/handlers.py` 262-289, `pdr/bit_handling.py` 21-55, 111-187,
`pdr/formats/checkers.py` 748-801, `pdr/formats/cassini.py` 230-249, `pdr/formats/galileo.py` 182-205,
`pdr/loaders/table.py` 97-134, composed with the models of bit columns (Model/Bits) and binary tables (Model/Table).
-/
import Verif.Model.Table

namespace Verif.BitTable
open Verif.Py Verif.Format Verif.Datatypes Verif.Bits Verif.Table Verif.Float
open Verif.Scaling (Num)

/-- What the special cases look at: INSTRUMENT_NAME; whether DATA_SET_ID matches the pattern for Cassini ISS, and
whether the product is one of the Galileo SSI (checkers.py 791-799). -/
structure Ids where
  instrument : Str
  iss : Bool := false
  ssi : Bool := false

/-- galileo.py 182-205 `ssi_redr_bit_col_format` for one BIT_COLUMN -/
def ssiFix (d : BitDef) : BitDef :=
  match d.items, d.itemBits with
  | some _, none => { d with itemBits := some (d.bits.getD 1) }
  | _, _ => d

/-- checkers.py 755-762 in `check_special_bit_column_case` -/
def msbInstruments : List Str :=
  [c!"ALPHA PARTICLE X-RAYSPECTROMETER", c!"JOVIAN AURORAL PLASMA DISTRIBUTIONS EXPERIMENT",
   c!"CHEMISTRY AND MINERALOGY INSTRUMENT", c!"MARS ADVANCED RADAR FOR SUBSURFACE ANDIONOSPHERE SOUNDING"]

/-- bit_handling.py 158-187 `set_bit_string_data_type`: the DATA_TYPE of a column that is `t` in the label, with the
BIT_DATA_TYPE of the first of its BIT_COLUMNs (`dict` of a MultiDict takes the first value) -/
def setBitType (ids : Ids) (t : Str) (bitType : Option Str) : Except PyErr Str :=
  if ids.instrument ∈ msbInstruments then .ok c!"MSB_BIT_STRING"
  else match bitType with
    | none => .error .valueError
    | some u => match sampleTypes u 1 true with
      | .error .keyError => .error .valueError
      | .error .valueError => .error .valueError
      | .error e => .error e
      | .ok s =>
        if s.head? = some '>' then .ok c!"MSB_BIT_STRING"
        else if s.head? = some '<' then .ok c!"LSB_BIT_STRING"
        else .ok t

/-- handlers.py 263-289 `add_bit_column_info` -/
def addBitInfo (ids : Ids) (a : Attrs) : Except PyErr Attrs :=
  match a.bits with
  | none => .ok a
  | some o =>
    -- checkers.py 780-801
    let t := if ids.iss then c!"MSB_BIT_STRING" else a.dataType
    let defs := if !ids.iss && ids.ssi then o.defs.map ssiFix else o.defs
    let t := underscored t
    let t' : Except PyErr Str := if contains t c!"BIT_STRING" then .ok t else setBitType ids t o.bitType
    match t' with
    | .error e => .error e
    | .ok t' => match bitStartAndSize ids.instrument defs with
      | .error e => .error e
      | .ok p => .ok { a with dataType := t', bits := some { o with lists := some p } }

mutual
/-- queries.py 745-754 in `read_format_block`: the bit columns of an entry. (In the code, this is done as the entries are read.) -/
def addBits (ids : Ids) : Def → Except PyErr Def
  | .column n s b items ib io a =>
    match addBitInfo ids a with
    | .error e => .error e
    | .ok a => .ok (.column n s b items ib io a)
  | .container n s b r cs =>
    match addBitsAll ids cs with
    | .error e => .error e
    | .ok cs => .ok (.container n s b r cs)
  | .array n s b ax cs =>
    match addBitsAll ids cs with
    | .error e => .error e
    | .ok cs => .ok (.array n s b ax cs)
  | .other => .ok .other
/-- … and of all entries, in label order -/
def addBitsAll (ids : Ids) : List Def → Except PyErr (List Def)
  | [] => .ok []
  | d :: ds =>
    match addBits ids d with
    | .error e => .error e
    | .ok d => match addBitsAll ids ds with
      | .error e => .error e
      | .ok ds => .ok (d :: ds)
end

/-- a column of the table: as in Model/Table, or the lists of bit strings of a bit column -/
inductive BColumn
  | plain (c : Column)
  | bits (vs : List (List Str))

/-- bit_handling.py 38-55 `convert_to_full_bit_string` and 112-136 `splice_bit_string` for one column. `len` of a number,
and joining texts to bytes, are TypeErrors. Simplification: the code converts all columns before it cuts the first; of
several errors, the first in table order is reported. (A column of character values, which may have different lengths
since NULs at their ends are left out, is cut up as if its values had been one string.) -/
def expandBits (a : Attrs) (c : Column) : Except PyErr BColumn :=
  match a.bits with
  | some ⟨_, _, some (starts, sizes)⟩ =>
    match c with
    | .bytes vs =>
      match convertColumn (determineByteOrder a.dataType) vs with
      | .error e => .error e
      | .ok strs => match spliceColumn starts sizes strs with
        | .error e => .error e
        | .ok out => .ok (.bits out)
    | .ints _ vs => if vs.isEmpty then .error .indexError else .error .typeError
    | .floats _ vs => if vs.isEmpty then .error .indexError else .error .typeError
    | .bools vs => if vs.isEmpty then .error .indexError else .error .typeError
    | .texts vs => if vs.isEmpty then .error .indexError else .error .typeError
  | _ => .ok (.plain c)

/-- `list * n` -/
def repeatList {α : Type} (n : Int) (l : List α) : List α := (List.replicate n.toNat l).flatten

/-- table.py 99-109 for one column. Lists times an integer are repeated; other operations on lists are TypeErrors. -/
def scaleB (R : Rounding double) (R' : Rounding single) (c : BColumn) (scale offset : Option Num) : Except PyErr BColumn :=
  match c with
  | .plain c => (scaleCol R R' c scale offset).map .plain
  | .bits vs =>
    let scaled : Except PyErr (List (List Str)) :=
      match scale with
      | none => .ok vs
      | some (.int n) => if n = 0 then .ok vs else .ok (vs.map (repeatList n))
      | some (.float x) => if x = 0 then .ok vs else .error .typeError
    match scaled with
    | .error e => .error e
    | .ok vs => match offset with
      | none => .ok (.bits vs)
      | some n => if n.val = 0 then .ok (.bits vs) else .error .typeError

/-- table.py 73-110 `read_table` and 113-134 `_interpret_as_binary` for binary tables with bit columns -/
def readBitTable (ids : Ids) (src : Source) (b : Block) (start : Nat) : Except PyErr (Option (List (Str × BColumn))) :=
  match addBitsAll ids b.defs with
  | .error e => .error e
  | .ok defs =>
    match parseStructure { b with defs := defs } with
    | .error e => .error e
    | .ok (_, none) => .ok none
    | .ok (_, some (cols, L)) =>
      match readRecords src.compressed src.file start L (b.rows.getD 1) with
      | .error e => .error e
      | .ok recs =>
        match cols.mapM (columnOf src recs) with
        | .error e => .error e
        | .ok columns =>
          match (cols.zip columns).mapM (fun p => expandBits p.1.fld.attrs p.2) with
          | .error e => .error e
          | .ok expanded =>
            let scales := unify src.R (cols.map (·.fld.attrs.scale))
            let offsets := unify src.R (cols.map (·.fld.attrs.offset))
            let all := (cols.map (·.fld.name)).zip (expanded.zip (scales.zip offsets))
            -- `_drop_placeholders`
            let kept := all.filter (fun q => !contains q.1 c!"PLACEHOLDER")
            match kept.mapM (fun q => (scaleB src.R src.R' q.2.1 q.2.2.1 q.2.2.2).map (fun c => (q.1, c))) with
            | .error e => .error e
            | .ok out => .ok (some out)

end Verif.BitTable
