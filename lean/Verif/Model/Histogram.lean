/-
Model of reading HISTOGRAMs: `pdr/loaders/queries.py` 569-639 and 798-813, `pdr/pd_utils.py` 157-204, `pdr/loaders/table.py`
73-134.
-/
import Verif.Model.Table

namespace Verif.Histogram
open Verif.Py Verif.Format Verif.Datatypes Verif.Scaling

/-- What the label says about a HISTOGRAM: the name of the object, its NAME, its other keys, and DATA_TYPE, SCALING_FACTOR and
OFFSET (`attrs`). -/
structure Block where
  name : Str
  histName : Option Str := none
  items : Option Nat := none
  itemBytes : Option Nat := none
  bytes : Option Nat := none
  startByte : Option Int := none
  rows : Option Nat := none
  interchange : Option Str := none
  attrs : Attrs

/-- queries.py 798-813 `get_histogram_fields`: the number of fields (`append_repeated_object`, utils.py 117-148) -/
def copiesOf (h : Block) : Nat := if 1 < h.items.getD 1 then h.items.getD 1 else 1

/-- queries.py 633-639: NAME, or the name of the object, with numbers (`reindex_df_values`). Simplification: a NAME of
RESERVED is not one (that asks for START_BYTE). -/
def namesOf (h : Block) : List Str := reindexNames (List.replicate (copiesOf h) (h.histName.getD h.name)) []

/-- queries.py 558-566 `_probably_ascii` -/
def probablyAscii (h : Block) : Bool :=
  contains h.attrs.dataType c!"ASCII" || contains h.name c!"SPREADSHEET" || contains h.name c!"ASCII" ||
    h.interchange == some c!"ASCII"

/-- queries.py 584-594 with 538-555 `_fill_empty_byte_rows`: BYTES of the format definition; `none`: the object is taken to be
text -/
def bytesOf (h : Block) : Except PyErr (Option Nat) :=
  match h.bytes with
  | some n => .ok (some n)
  | none =>
    if probablyAscii h then .ok none
    else match h.items, h.itemBytes with
      | some n, some s => .ok (some (n * s))
      | _, _ => .error .valueError

/-- pd_utils.py 157-192: the dtype of each field -/
def itemDtype (h : Block) (total : Nat) : Except PyErr Dtype :=
  match sampleTypes h.attrs.dataType (h.itemBytes.getD total) true with
  | .error e => .error e
  | .ok s => match npDtype s with
    | some d => .ok d
    | none => .error .typeError

/-- pd_utils.py 195-204 `fmtdef_to_dtype` without SB_OFFSET: one field directly after the other -/
def fieldsOf (h : Block) (total : Nat) (d : Dtype) : List Table.TCol :=
  (List.range (copiesOf h)).map (fun i =>
    ⟨{ name := (namesOf h).getD i [], startByte := 0, bytes := total, itemBytes := h.itemBytes, attrs := h.attrs },
      ((i * d.size : Nat) : Int), d⟩)

/-- queries.py 569-606 `parse_table_structure` for a HISTOGRAM. With START_BYTE, `compute_offsets` (pd_utils.py 90-92) looks
for BLOCK_NAME, which histograms do not have. -/
def parseStructure (h : Block) : Except PyErr (Option (List Table.TCol × Nat)) :=
  if h.interchange = some c!"ASCII" then .error .notImplemented
  else match bytesOf h with
    | .error e => .error e
    | .ok none => .ok none
    | .ok (some total) =>
      if h.startByte.isSome then .error .keyError
      else if probablyAscii h then .ok none
      else match itemDtype h total with
        | .error e => .error e
        | .ok d => .ok (some (fieldsOf h total d, copiesOf h * d.size))

/-- table.py 113-134 and 96-110: reading records of `L` bytes with these fields; this is the second half of
`Table.readTable` -/
def readFields (src : Table.Source) (cols : List Table.TCol) (L count start : Nat) :
    Except PyErr (Option (List (Str × Table.Column))) :=
  match Table.readRecords src.compressed src.file start L count with
  | .error e => .error e
  | .ok recs => match cols.mapM (Table.columnOf src recs) with
    | .error e => .error e
    | .ok columns =>
      let scales := Table.unify src.R (cols.map (·.fld.attrs.scale))
      let offsets := Table.unify src.R (cols.map (·.fld.attrs.offset))
      let all := (cols.map (·.fld.name)).zip (columns.zip (scales.zip offsets))
      let kept := all.filter (fun q => !contains q.1 c!"PLACEHOLDER")
      match kept.mapM (fun q => (Table.scaleCol src.R src.R' q.2.1 q.2.2.1 q.2.2.2).map (fun c => (q.1, c))) with
      | .error e => .error e
      | .ok out => .ok (some out)

/-- table.py 73-110 `read_table` for a HISTOGRAM; `none`: it is taken to be text -/
def readHistogram (src : Table.Source) (h : Block) (start : Nat) : Except PyErr (Option (List (Str × Table.Column))) :=
  match parseStructure h with
  | .error e => .error e
  | .ok none => .ok none
  | .ok (some (cols, L)) => readFields src cols L (h.rows.getD 1) start

end Verif.Histogram
