/-
Model of reading PDS4 delimited tables (Table_Delimited): `pdr/pds4_tools/reader/read_tables.py` 31-78, 302-608, 817-957,
`table_objects.py` 889-996, `data_types.py` 417-545 (with `mask_nulls`), and what delimited tables share with
`Verif.Model.Pds4Table`. Labels without Special_Constants.
-/
import Verif.Model.Pds4Table

namespace Verif.Pds4Delim
open Verif.Py Verif.Bits Verif.Datatypes Verif.Table Verif.ImageFile Verif.Pds4Table

/-! ### the label -/

/-- read_tables.py 470-475: the field delimiters. (Other names, for which Python splits at white space, are left out:
PDS4 has only these.) -/
inductive FieldDelim | comma | tab | semicolon | bar

def FieldDelim.byte : FieldDelim → UInt8
  | .comma => 44 | .tab => 9 | .semicolon => 59 | .bar => 124

/-- read_tables.py 859-861: the record delimiters (others are left out) -/
inductive RecordDelim | lf | crlf

def RecordDelim.bytes : RecordDelim → Bytes
  | .lf => [10] | .crlf => [13, 10]

/-- What the label says about a Table_Delimited. Fields and groups have no locations and lengths here. -/
structure Label where
  offset : Nat
  records : Nat
  objectLength : Option Nat
  maxRecord : Option Nat
  fieldDelim : FieldDelim
  recordDelim : RecordDelim
  uniform : List Uniform
  body : Forest

/-- the parts of the label that names and data frame depend on -/
def Label.table (l : Label) : Pds4Table.Label :=
  { binary := false, offset := l.offset, records := l.records, recordLength := 0, uniform := l.uniform, body := l.body }

/-- the list of fields and groups with the uniformly sampled fields, which come first and on level 0
(table_objects.py 1090-1111 `_add_uniformly_sampled`) -/
def Label.all (l : Label) : Forest :=
  l.uniform.foldr (fun u rest => Forest.field ⟨u.name, 0, 0, []⟩ rest) l.body

/-! ### the bytes -/

/-- read_tables.py 56-71: where the data end; `none`: at the end of the file -/
def stopByte (l : Label) : Option Nat :=
  match l.objectLength, l.maxRecord with
  | some n, _ => some (l.offset + n)
  | none, some n => some (l.offset + l.records * n)
  | none, none => none

/-- read_tables.py 31-78 with core.py 312-358 -/
def dataBytes (l : Label) (file : Bytes) : Bytes :=
  match stopByte l with
  | some stop => if 0 < stop then (file.drop l.offset).take (stop - l.offset) else file.drop l.offset
  | none => file.drop l.offset

/-- `bytes.split` at a separator that is not empty; the first argument is a bound on the length, the second what has been
seen of the piece -/
def splitOn (sep : Bytes) : Nat → Bytes → Bytes → List Bytes
  | 0, seen, s => [seen ++ s]
  | _, seen, [] => [seen]
  | n + 1, seen, c :: cs =>
    if sep.isPrefixOf (c :: cs) then seen :: splitOn sep n [] ((c :: cs).drop sep.length)
    else splitOn sep n (seen ++ [c]) cs

/-- read_tables.py 865: the records -/
def recordsOf (l : Label) (file : Bytes) : List Bytes :=
  let data := dataBytes l file
  (splitOn l.recordDelim.bytes data.length [] data).take l.records

/-! ### columns -/

/-- the number of fields -/
def count : Forest → Nat
  | .nil => 0
  | .field _ rest => 1 + count rest
  | .group _ inner rest => count inner + count rest

/-- read_tables.py 481-492: the number of columns, where a field has a column for each repetition of its groups. `outer` is
the product of the repetitions around. (On the tree instead of over indices.) -/
def numColumns (outer : Nat) : Forest → Nat
  | .nil => 0
  | .field _ rest => outer + numColumns outer rest
  | .group g inner rest => numColumns (outer * g.repetitions) inner + numColumns outer rest

/-- table_objects.py 889-941 `get_field_offset`, for the field with number `k`; `n` is the number of the next field. (On the
tree instead of over indices; fields are compared by their numbers where Python uses identity.) -/
def fieldOffset (k n : Nat) : Forest → Nat
  | .nil => 0
  | .field _ rest => if n = k then 0 else 1 + fieldOffset k (n + 1) rest
  | .group g inner rest =>
    let add := fieldOffset k n inner
    if n ≤ k ∧ k < n + count inner then add
    else add * g.repetitions + fieldOffset k (n + count inner) rest

/-- table_objects.py 979-992 in `get_field_skip_factors`: the number of values in one repetition of a group with these
members, without those of the field with number `k` -/
def skipIn (k n : Nat) : Forest → Nat
  | .nil => 0
  | .field _ rest => (if n ≠ k then 1 else 0) + skipIn k (n + 1) rest
  | .group g inner rest => skipIn k n inner * g.repetitions + skipIn k (n + count inner) rest

/-- table_objects.py 943-996 `get_field_skip_factors`, for the groups of the field with number `k`, outermost first -/
def skipFactors (k n : Nat) : Forest → List Nat
  | .nil => []
  | .field _ rest => if n = k then [] else skipFactors k (n + 1) rest
  | .group _ inner rest =>
    if n ≤ k ∧ k < n + count inner then skipIn k n inner :: skipFactors k n inner
    else skipFactors k (n + count inner) rest

/-- read_tables.py 390-391: the sum over the groups -/
def skipped : List Nat → List Nat → Nat
  | s :: ss, k :: ks => s * k + skipped ss ks
  | _, _ => 0

/-- read_tables.py 364-394: the columns of a field in groups -/
def groupColumns (start : Nat) (reps skips : List Nat) : List Nat :=
  (positions reps).zipIdx.map (fun p => start + p.2 + skipped skips p.1)

/-! ### the start bytes -/

/-- a record without its quotes, the start bytes of its values and the byte after the last one (and its delimiter) -/
structure Row where
  text : Bytes
  starts : List Nat
  stop : Nat

/-- read_tables.py 600-602: the start bytes of values, each followed by a delimiter -/
def startsFrom (next : Nat) : List Bytes → List Nat
  | [] => []
  | v :: vs => next :: startsFrom (next + v.length + 1) vs

/-- the end of the values -/
def stopFrom (next : Nat) (vs : List Bytes) : Nat := vs.foldl (fun n v => n + v.length + 1) next

/-- read_tables.py 543-554: how many pieces after this one the next quote is -/
def nextQuote (value : Bytes) (later : List Bytes) : Option Nat :=
  if 34 ∈ value.tail then some 0
  else (later.findIdx? (fun v => v.contains 34)).map (· + 1)

/-- read_tables.py 535-562: does a value in quotes start here? Then the number of pieces that belong to it, except the
first. Pieces are decoded to look at their first and last characters; in UTF-8, these are quotes when the first and last
bytes are. -/
def quotedHere (E : Env) (value : Bytes) (later : List Bytes) : Except PyErr (Option Nat) :=
  if value ≠ [] ∧ E.utf8 value = none then .error .unicodeError
  else if value.head? ≠ some 34 then .ok none
  else match nextQuote value later with
    | none => .ok none
    | some i => match (value :: later)[i]? with
      | none => .ok none       -- does not happen
      | some last =>
        if E.utf8 last = none then .error .unicodeError
        else .ok (if last.getLast? = some 34 then some i else none)

/-- read_tables.py 530-593: the values of a record that has quotes, from the pieces between delimiters. The first argument
is a bound on the number of pieces. -/
def unquote (E : Env) (sep : UInt8) : Nat → List Bytes → Except PyErr (List Bytes)
  | _, [] => .ok []
  | 0, _ => .ok []             -- does not happen
  | n + 1, value :: later => match quotedHere E value later with
    | .error e => .error e
    | .ok none => match unquote E sep n later with
      | .error e => .error e
      | .ok vs => .ok (value :: vs)
    | .ok (some i) => match unquote E sep n (later.drop i) with
      | .error e => .error e
      | .ok vs => .ok ((joinBytes [sep] (value :: later.take i)).tail.dropLast :: vs)

/-- read_tables.py 520-605 for one record. IndexError where there is no array for a column: there is one more than columns. -/
def parseRecord (E : Env) (sep : UInt8) (columns : Nat) (record : Bytes) : Except PyErr Row :=
  let pieces := splitByte sep record
  if record.contains 34 then
    match unquote E sep pieces.length pieces with
    | .error e => .error e
    | .ok vs =>
      if columns + 1 < vs.length then .error .indexError
      else .ok ⟨joinBytes [sep] vs, startsFrom 0 vs, stopFrom 0 vs⟩
  else if columns + 1 < pieces.length then .error .indexError
  else .ok ⟨record, startsFrom 0 pieces, stopFrom 0 pieces⟩

/-- What arrays made by `np.empty` contain: for a column and a record. -/
abbrev Memory := Nat → Nat → Nat

/-- the start byte of a column in a record; the last array has the end of the record (read_tables.py 600) -/
def startByte (mem : Memory) (columns : Nat) (r : Nat) (row : Row) (c : Nat) : Nat :=
  if c = columns then row.stop else row.starts.getD c (mem c r)

/-- read_tables.py 345-349 and 397-405: the value of a column in a record. `freed` are the columns whose start bytes have
been replaced by `None`. Simplification: an array from `np.empty` has numbers from 1 here. -/
def cellAt (mem : Memory) (columns : Nat) (rows : List Row) (freed : List Nat) (r c : Nat) : Except PyErr Bytes :=
  if c ∈ freed ∨ c + 1 ∈ freed then .error .typeError
  else match rows[r]? with
    | none => .error .indexError
    | some row => .ok ((row.text.take (startByte mem columns r row (c + 1) - 1)).drop (startByte mem columns r row c))

/-- read_tables.py 407-415: which start bytes are given up after a field in groups -/
def freeGroup (columns freed : List Nat) : List Nat :=
  columns.foldl (fun freed c => if c = 0 ∨ c - 1 ∈ columns ∨ c - 1 ∈ freed then c :: freed else freed) freed

/-- read_tables.py 302-415 `_extract_delimited_field_data`: the values and the columns given up by now -/
def extractDelim (mem : Memory) (columns records : Nat) (rows : List Row) (freed : List Nat) (start : Nat) (reps skips : List Nat) :
    Except PyErr (List Bytes × List Nat) :=
  if reps = [] ∨ Image.prod reps = 0 then
    match (List.range records).mapM (fun r => cellAt mem columns rows freed r start) with
    | .error e => .error e
    | .ok cells => .ok (cells, start :: freed)
  else
    let cols := groupColumns start reps skips
    match ((List.range records).flatMap (fun r => cols.map (fun c => (r, c)))).mapM (fun p => cellAt mem columns rows freed p.1 p.2) with
    | .error e => .error e
    | .ok cells => .ok (cells, freeGroup cols freed)

/-! ### the values -/

/-- data types for numbers and truth values -/
def isNumeric (t : Str) : Bool :=
  match typeKind false t with
  | .bits => false
  | .chars => false
  | _ => true

/-- is the value empty? -/
def blank (b : Bytes) : Bool := b.all isBlank

/-- data_types.py 417-545 with `mask_nulls`: empty numbers and truth values are read as 0 and masked (`none`) -/
def convertDelim (E : Env) (t : Str) (cells : List Bytes) : Except PyErr (List (Option Cell)) :=
  if isNumeric t then
    match convert E false t (cells.map (fun b => if blank b then [48] else b)) with
    | .error e => .error e
    | .ok vs => .ok ((cells.zip vs).map (fun p => if blank p.1 then none else some p.2))
  else (convert E false t cells).map (fun vs => vs.map some)

/-! ### the table -/

/-- a field of the label: with its groups and its number -/
structure Place where
  field : Field
  groups : List Group
  number : Nat

/-- the fields of the label in order; the uniformly sampled fields have the first numbers -/
def placesOf (l : Label) : List Place :=
  (fieldsOf [] (manifest 0 l.body)).zipIdx.map (fun p => ⟨p.1.1, p.1.2, l.uniform.length + p.2⟩)

/-- read_tables.py 880-950: the fields one after the other -/
def readFields (E : Env) (mem : Memory) (l : Label) (rows : List Row) (freed : List Nat) : List Place → Except PyErr (List (List (Option Cell)))
  | [] => .ok []
  | p :: ps =>
    match extractDelim mem (numColumns 1 l.all) l.records rows freed (fieldOffset p.number 0 l.all) (p.groups.map (·.repetitions))
        (skipFactors p.number 0 l.all) with
    | .error e => .error e
    | .ok (cells, freed) => match convertDelim E p.field.dataType cells with
      | .error e => .error e
      | .ok vs => match readFields E mem l rows freed ps with
        | .error e => .error e
        | .ok cols => .ok (vs :: cols)

/-- What the user gets: a data frame or, when values are masked, what pandas makes of a masked array (not modelled; the
values of the fields in the order of the label). -/
inductive Loaded
  | frame (columns : List (Str × List Cell))
  | masked (fields : List (List (Option Cell)))

/-- the fields of the structured array (read_tables.py 763-767 in `new_table`) -/
def placeAll (records : Nat) : List Place → List (List Cell) → Except PyErr (List Pds4Table.Column)
  | p :: ps, v :: vs => match place records (p.groups.map (·.repetitions)) v with
    | .error e => .error e
    | .ok c => match placeAll records ps vs with
      | .error e => .error e
      | .ok cs => .ok (c :: cs)
  | _, _ => .ok []

/-- read_tables.py 817-957 `read_table_data` for delimited tables with 610-769 `new_table`, and pdr.py 751-760 -/
def readDelimited (E : Env) (mem : Memory) (l : Label) (file : Bytes) : Except PyErr Loaded :=
  let records := recordsOf l file
  if records = [] then .error .valueError     -- `max` of nothing
  else match records.mapM (parseRecord E l.fieldDelim.byte (numColumns 1 l.all)) with
    | .error e => .error e
    | .ok rows => match readFields E mem l rows [] (placesOf l) with
      | .error e => .error e
      | .ok fields =>
        if fields.any (fun f => f.any Option.isNone) then .ok (.masked fields)
        else match placeAll l.records (placesOf l) (fields.map (fun f => f.filterMap id)) with
          | .error e => .error e
          | .ok cs => (frame l.table cs).map Loaded.frame

end Verif.Pds4Delim
