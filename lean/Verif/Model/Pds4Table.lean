/-
Model of reading PDS4 tables with records of fixed length (Table_Character, Table_Binary):
`pdr/pds4_tools/reader/table_objects.py` 609-1412 and 1461-1557, `read_tables.py` 31-78, 188-299, 610-769 and 817-957,
`data_types.py` 22-57 and 364-586, `pdr/pdr.py` 751-760, `pdr/pd_utils.py` 271-318, as pdr calls them: without scaling,
without masking, with texts decoded. NumPy 2.
-/
import Verif.Model.Pds4Array
import Verif.Model.Pds4Scale
import Verif.Model.Literal

namespace Verif.Pds4Table
open Verif.Py Verif.Bits Verif.Datatypes Verif.Table Verif.ImageFile

/-! ### the label -/

/-- a Field_Character or Field_Binary -/
structure Field where
  name : Str
  location : Nat
  length : Nat
  dataType : Str

/-- a Group_Field_Character or Group_Field_Binary; its name is optional -/
structure Group where
  name : Option Str
  location : Nat
  length : Nat
  repetitions : Nat

/-- the fields and groups of a record or group, in the order of the label -/
inductive Forest
  | nil
  | field (f : Field) (rest : Forest)
  | group (g : Group) (inner rest : Forest)

/-- a field or group in the list that `TableManifest` keeps -/
inductive Item
  | field (f : Field)
  | group (g : Group)

/-- an item with its `group_level` -/
structure Entry where
  level : Nat
  item : Item

/-- table_objects.py 1030-1088 `_add_fields_and_groups`: the fields and groups in a single list, the members of a group
after it and one level deeper -/
def manifest (level : Nat) : Forest → List Entry
  | .nil => []
  | .field f rest => ⟨level, .field f⟩ :: manifest level rest
  | .group g inner rest => ⟨level, .group g⟩ :: (manifest (level + 1) inner ++ manifest level rest)

/-- table_objects.py 821-887 `get_parent_by_idx` and `get_parents_by_idx`: for an item of a level, the nearest item before
it that is a group of the level above, then the group of that one, up to level 0. The items before are given nearest first.
(Where Python finds no group, and takes the last item of the list, there is none here: this does not happen in the
manifest of a label.) -/
def parents : Nat → List Entry → List Group
  | _, [] => []
  | level, e :: before => match e.item with
    | .group g => if e.level + 1 = level then g :: parents e.level before else parents level before
    | .field _ => parents level before

/-- the fields of the manifest (table_objects.py 715-730 `fields`), each with its groups, the outermost group first: the
order of `field.shape[1:]` (1273-1296 `_get_item_shape`), of `group_locations` and of `repetition_lengths`
(read_tables.py 911-917) -/
def fieldsOf (before : List Entry) : List Entry → List (Field × List Group)
  | [] => []
  | e :: es => match e.item with
    | .field f => (f, (parents e.level before).reverse) :: fieldsOf (e :: before) es
    | .group _ => fieldsOf (e :: before) es

/-- table_objects.py 1364-1368 in `_validate_table`: `length % repetitions` has to be 0; PDS4StandardsException -/
def validate : List Entry → Except PyErr Unit
  | [] => .ok ()
  | e :: es => match e.item with
    | .group g =>
      if g.repetitions = 0 then .error .zeroDivision
      else if g.length % g.repetitions ≠ 0 then .error .invalidLabel
      else validate es
    | .field _ => validate es

/-! ### names -/

/-- table_objects.py 1113-1156 `_create_group_names`: a group without a name is named after its number among the groups
beside it. (On the tree instead of level by level.) -/
def nameGroups (k : Nat) : Forest → Forest
  | .nil => .nil
  | .field f rest => .field f (nameGroups k rest)
  | .group g inner rest =>
    .group { g with name := some (g.name.getD (c!"GROUP_" ++ natStr k)) } (nameGroups 0 inner) (nameGroups (k + 1) rest)

/-- the names of the fields (`false`) and groups (`true`) beside each other -/
def siblings : Forest → List (Bool × Str)
  | .nil => []
  | .field f rest => (false, f.name) :: siblings rest
  | .group g _ rest => (true, g.name.getD []) :: siblings rest

/-- table_objects.py 1158-1230 `_create_full_locations` with 1232-1271 `_get_overlapping_item_idxs` and 1534-1537 in
`full_name`: the mark of an item that shares its name with another item of its kind beside it -/
def overlap (all before : List (Bool × Str)) (me : Bool × Str) : Str :=
  if 2 ≤ all.count me then c!" [" ++ natStr (before.count me) ++ c!"]" else []

/-- table_objects.py 1461-1557 `full_name` of every field: the names of its groups and its own. (On the tree instead of
over indices.) -/
def fullNames (path : Str) (all before : List (Bool × Str)) : Forest → List Str
  | .nil => []
  | .field f rest => (path ++ f.name ++ overlap all before (false, f.name)) ::
      fullNames path all (before ++ [(false, f.name)]) rest
  | .group g inner rest =>
    let name := g.name.getD []
    fullNames (path ++ name ++ overlap all before (true, name) ++ c!", ") (siblings inner) [] inner ++
      fullNames path all (before ++ [(true, name)]) rest

/-- data_types.py 364-386 `pds_to_numpy_name` -/
def numpyName (s : Str) : Str := s.map (fun c => if c = ':' then '_' else c)

/-- a match of the regular expression `GROUP_?\d+` (pdr.py 755) at the start of a text: what follows it -/
def matchGroup (s : Str) : Option Str :=
  if c!"GROUP".isPrefixOf s then
    let t := s.drop 5
    let t := if t.head? = some '_' then t.tail else t
    let u := t.dropWhile Char.isDigit
    if u.length < t.length then some u else none
  else none

/-- `str.replace(r"GROUP_?\d+", "", regex=True)`; the first argument is a bound on the length of the text -/
def removeGroups : Nat → Str → Str
  | _, [] => []
  | 0, s => s
  | n + 1, c :: cs => match matchGroup (c :: cs) with
    | some u => removeGroups n u
    | none => c :: removeGroups n cs

/-- `str.strip(", ")` -/
def stripComma (s : Str) : Str :=
  let p := fun (c : Char) => c = ',' || c = ' '
  ((s.dropWhile p).reverse.dropWhile p).reverse

/-- pdr.py 755-756: the names of the columns -/
def columnName (s : Str) : Str := stripComma (removeGroups s.length s)

/-! ### the bytes -/

/-- read_tables.py 31-78 `_read_table_byte_data` with core.py 312-358 `read_byte_data`, for tables with records of fixed
length -/
def tableBytes (file : Bytes) (offset records recordLength : Nat) : Bytes :=
  if 0 < offset + records * recordLength then (file.drop offset).take (records * recordLength) else file.drop offset

/-- `table_byte_data[start:start + n]` -/
def slice (data : Bytes) (start n : Nat) : Bytes := (data.drop start).take n

/-- `itertools.product` of ranges -/
def positions : List Nat → List (List Nat)
  | [] => [[]]
  | n :: ns => (List.range n).flatMap (fun i => (positions ns).map (fun p => i :: p))

/-- read_tables.py 243-246: the loop that compares `length * array_shape[i + 2]` with `repetition_lengths[i]` -/
def tight : List Nat → List Nat → Bool
  | _ :: r :: rs, l :: l' :: ls => decide (l' * r = l) && tight (r :: rs) (l' :: ls)
  | _, _ => true

/-- read_tables.py 240-246: are the values in groups one after the other? -/
def contiguous (fieldLength : Nat) (reps locations lengths : List Nat) : Bool :=
  locations.tail.all (fun l => l == 0) && (lengths.getLast? == some fieldLength) && tight reps lengths

/-- read_tables.py 282-283: the sum over the groups -/
def groupBytes : List Nat → List Nat → List Nat → Nat
  | l :: ls, n :: ns, k :: ks => l + n * k + groupBytes ls ns ks
  | _, _, _ => 0

/-- read_tables.py 188-299 `_extract_fixed_width_field_data`. `location` is counted from 0; `reps`, `locations` (from 0) and
`lengths` (of one repetition) are those of the groups, outermost first. -/
def extract (data : Bytes) (length location recordLength records : Nat) (reps locations lengths : List Nat) : List Bytes :=
  if reps = [] then (List.range records).map (fun r => slice data (r * recordLength + location) length)
  else if contiguous length reps locations lengths then
    (List.range records).flatMap (fun r => (List.range (Image.prod reps)).map (fun e =>
      slice data (r * recordLength + locations.headD 0 + location + length * e) length))
  else
    (positions (records :: reps)).map (fun p =>
      slice data (recordLength * p.headD 0 + location + groupBytes locations lengths p.tail) length)

/-- read_tables.py 911-924: extraction for a field with its groups. Simplification: `location - 1` is 0 for a location of
0, where Python has -1; PDS4 locations are at least 1. -/
def extractField (data : Bytes) (recordLength records : Nat) (f : Field) (gs : List Group) : List Bytes :=
  extract data f.length (f.location - 1) recordLength records (gs.map (·.repetitions)) (gs.map (fun g => g.location - 1))
    (gs.map (fun g => g.length / g.repetitions))

/-! ### the values -/

/-- a value of a table -/
inductive Cell
  | elem (e : Elem)
  | bool (b : Bool)
  | text (s : Str)

/-- Functions of the libraries that are not modelled: Python's `float` of bytes as a number of 64 or 32 bits (`none`:
ValueError) and the decoding of UTF-8 (`none`: UnicodeDecodeError). -/
structure Env where
  float : Scaling.FloatType → Bytes → Option (Option ℚ)
  utf8 : Bytes → Option Str

/-- bytes as a text of Latin characters: what `int` of bytes looks at -/
def latin (b : Bytes) : Str := b.map (fun c => Char.ofNat c.toNat)

/-- `bytes.replace` -/
def replaceAll (old new : Bytes) : Nat → Bytes → Bytes
  | _, [] => []
  | 0, s => s
  | n + 1, c :: cs => if old.isPrefixOf (c :: cs) then new ++ replaceAll old new n ((c :: cs).drop old.length)
      else c :: replaceAll old new n cs

/-- what kind of conversion a data type gets -/
inductive TypeKind
  | binary (d : Dtype)                     -- numbers in binary, in a Table_Binary
  | int (d : Dtype) (least : Bool)         -- integers as texts; `least`: stored in the smallest dtype that holds them
  | base (b : Int)                         -- integers in another base
  | real (w : Scaling.FloatType)
  | bool
  | bits                                   -- bit strings
  | chars

/-- data_types.py 22-52, 1331-1374 `issubtype` and the conditions in 417-586: binary tables convert the types of
`PDS_NUMERIC_TYPES` without ASCII in their name from bytes, everything else is converted from text. (Types for complex
numbers are left out.) -/
def typeKind (binaryTable : Bool) (t : Str) : TypeKind :=
  if t = c!"ASCII_Real" then .real .f64
  else if t = c!"ASCII_Integer" then .int ⟨none, .int, 8⟩ true
  else if t = c!"ASCII_NonNegative_Integer" then .int ⟨none, .uint, 8⟩ true
  else if t = c!"ASCII_Numeric_Base2" then .base 2
  else if t = c!"ASCII_Numeric_Base8" then .base 8
  else if t = c!"ASCII_Numeric_Base16" then .base 16
  else if t = c!"ASCII_Boolean" then .bool
  else match Pds4Array.numericTypes.lookup t with
    | some d =>
      if binaryTable then .binary d
      else match d.kind with
        | .float => .real (if d.size = 4 then .f32 else .f64)
        | _ => .int d false
    | none => if contains (lower t) c!"bitstring" then .bits else .chars

/-- the integer type of a dtype -/
def intType (d : Dtype) : NumPy.IntType := ⟨d.kind != .uint, 8 * d.size⟩

/-- data_types.py 389-413 `data_type_convert_array` of the joined values: `np.frombuffer` wants whole elements -/
def fromBuffer (d : Dtype) (bs : Bytes) : Except PyErr (List Elem) :=
  if bs.length % d.size ≠ 0 then .error .valueError else .ok (elems d (records d.size (bs.length / d.size) bs))

/-- one value of `np.asanyarray(data, dtype)` of Python integers -/
def intoType (t : NumPy.IntType) (n : Int) : Except PyErr Int :=
  if NumPy.lo t ≤ n ∧ n ≤ NumPy.hi t then .ok n else .error .overflowError

/-- white space in bytes -/
def isBlank (c : UInt8) : Bool := (9 ≤ c && c ≤ 13) || c == 32

/-- `int(data[i], base)` of bytes, which drops white space of ASCII only -/
def toInt (base : Int) (b : Bytes) : Except PyErr Int :=
  let s := latin ((b.dropWhile isBlank).reverse.dropWhile isBlank).reverse
  if strip s ≠ s then .error .valueError
  else match Literal.pyInt s base with
    | some n => .ok n
    | none => .error .valueError

/-- data_types.py 180-193 in `pds_to_numpy_type`: integers put into the smallest dtype for them (which becomes the dtype
of the column), where numpy keeps the low bits -/
def toLeast (t : NumPy.DType) (ns : List Int) : Except PyErr (List Int) :=
  match Pds4Scale.minIntType t ns with
  | .error e => .error e
  | .ok none => .ok ns
  | .ok (some u) => .ok (ns.map (NumPy.wrap u))

/-- `bytes.split` at a separator of one byte -/
def splitByte (sep : UInt8) : Bytes → List Bytes
  | [] => [[]]
  | c :: cs => if c = sep then [] :: splitByte sep cs else match splitByte sep cs with
    | [] => [[c]]      -- does not happen
    | w :: ws => (c :: w) :: ws

/-- `sep.join` -/
def joinBytes (sep : Bytes) : List Bytes → Bytes
  | [] => []
  | [w] => w
  | w :: ws => w ++ sep ++ joinBytes sep ws

/-- `true` and `false` as bytes -/
def sTrue : Bytes := [116, 114, 117, 101]
def sFalse : Bytes := [102, 97, 108, 115, 101]

/-- one value of `np.asarray(data).astype(np.uint8).astype(bool)` -/
def toBool (b : Bytes) : Except PyErr Cell :=
  match toInt 10 (stripNuls b) with
  | .error e => .error e
  | .ok n => if 0 ≤ n ∧ n ≤ 255 then .ok (.bool (n ≠ 0)) else .error .overflowError

/-- data_types.py 474-486, the ASCII_Boolean branch: `true` and `false` are replaced by 1 and 0 in the values joined by
`@`, and the results read as integers of 8 bits -/
def toBools (cells : List Bytes) : Except PyErr (List Cell) :=
  let joined := joinBytes [64] cells
  let a := replaceAll sTrue [49] joined.length joined
  let b := replaceAll sFalse [48] a.length a
  (splitByte 64 b).mapM toBool

/-- the integer values of a field as texts -/
def toInts (d : Dtype) (least : Bool) (cells : List Bytes) : Except PyErr (List Int) :=
  match cells.mapM (toInt 10) with
  | .error e => .error e
  | .ok ns => match ns.mapM (intoType (intType d)) with
    | .error e => .error e
    | .ok ns => if least then toLeast (some (intType d)) ns else .ok ns

/-- `np.asarray(data, dtype=float64)` -/
def toReal (E : Env) (w : Scaling.FloatType) (b : Bytes) : Except PyErr Cell :=
  match E.float w b with
  | some x => .ok (.elem (.real x))
  | none => .error .valueError

/-- decoding, read_tables.py 747-748 -/
def decodeText (E : Env) (b : Bytes) : Except PyErr Cell :=
  match E.utf8 (stripNuls b) with
  | some s => .ok (.text s)
  | none => .error .unicodeError

/-- data_types.py 417-586 `data_type_convert_table_ascii` and `data_type_convert_table_binary`, with the dtype of the
column (read_tables.py 689-692) and the decoding of texts (747-748). Simplification: texts of one field are decoded before
the next field is converted, which changes which exception is raised when there are several. Values of character types are
elements of a numpy array of bytes: their trailing NULs are lost. -/
def convert (E : Env) (binaryTable : Bool) (t : Str) (cells : List Bytes) : Except PyErr (List Cell) :=
  match typeKind binaryTable t with
  | .binary d => (fromBuffer d cells.flatten).map (fun es => es.map Cell.elem)
  | .int d least => (toInts d least cells).map (fun ns => ns.map (fun n => Cell.elem (.int n)))
  | .base b => match cells.mapM (toInt b) with
    | .error e => .error e
    | .ok ns => (toLeast none ns).map (fun ns => ns.map (fun n => Cell.elem (.int n)))
  | .real w => cells.mapM (toReal E w)
  | .bool => toBools cells
  | .bits => .ok (cells.map (fun b => .elem (.bytes (stripNuls b))))
  | .chars => cells.mapM (decodeText E)

/-! ### the table -/

/-- a Uniformly_Sampled field, with the values `_make_uniformly_sampled_field` gives it (Model/Uniform) -/
structure Uniform where
  name : Str
  values : List Cell

/-- What the label says about a Table_Character or Table_Binary. -/
structure Label where
  binary : Bool
  offset : Nat
  records : Nat
  recordLength : Nat
  uniform : List Uniform := []
  body : Forest

/-- a field in the structured array: a shape for one record and the values -/
structure Column where
  shape : List Nat
  values : List Cell

/-- read_tables.py 763-767: the values of a field put into the structured array. Fields in groups are given their shape; a
single value is taken for all records. -/
def place (recs : Nat) (shape : List Nat) (cells : List Cell) : Except PyErr Column :=
  if shape ≠ [] then
    if cells.length = recs * Image.prod shape then .ok ⟨shape, cells⟩ else .error .valueError
  else if cells.length = recs then .ok ⟨[], cells⟩
  else match cells with
    | [c] => .ok ⟨[], List.replicate recs c⟩
    | _ => .error .valueError

/-- read_tables.py 880-950 and 738-767 for one field -/
def readField (E : Env) (l : Label) (data : Bytes) (f : Field) (gs : List Group) : Except PyErr Column :=
  match convert E l.binary f.dataType (extractField data l.recordLength l.records f gs) with
  | .error e => .error e
  | .ok cells => place l.records (gs.map (·.repetitions)) cells

/-- column `k` of a block of `width` values for each record -/
def blockColumn (recs width k : Nat) (cells : List Cell) : List Cell :=
  (List.range recs).filterMap (fun r => cells[r * width + k]?)

/-- pd_utils.py 271-318 `structured_array_to_df`, one field -/
def toColumns (recs : Nat) (name : Str) (c : Column) : Except PyErr (List (Str × List Cell)) :=
  match c.shape with
  | [] => .ok [(name, c.values)]
  | _ :: _ :: _ :: _ => .error .notImplemented
  | shape => .ok ((List.range (Image.prod shape)).map (fun k => (name ++ c!"_" ++ natStr k, blockColumn recs (Image.prod shape) k c.values)))

/-- the names of the fields in the structured array -/
def fieldNames (l : Label) : List Str :=
  let all := l.uniform.foldr (fun u rest => Forest.field ⟨u.name, 0, 0, []⟩ rest) (nameGroups 0 l.body)
  (fullNames [] (siblings all) [] all).map numpyName

/-- read_tables.py 689-769 in `new_table` (names have to be different; the uniformly sampled fields come first) and pdr.py
751-760: the data frame -/
def frame (l : Label) (cs : List Column) : Except PyErr (List (Str × List Cell)) :=
  let cols := l.uniform.map (fun u => (⟨[], u.values⟩ : Column)) ++ cs
  if ¬ (fieldNames l).Nodup then .error .valueError
  else match ((fieldNames l).zip cols).mapM (fun p => toColumns l.records p.1 p.2) with
    | .error e => .error e
    | .ok blocks => .ok (blocks.flatten.map (fun c => (columnName c.1, c.2)))

/-- read_tables.py 817-957 `read_table_data` with 610-769 `new_table`, and pdr.py 751-760 -/
def readTable (E : Env) (l : Label) (file : Bytes) : Except PyErr (List (Str × List Cell)) :=
  let es := manifest 0 l.body
  match validate es with
  | .error e => .error e
  | .ok () =>
    let data := tableBytes file l.offset l.records l.recordLength
    match (fieldsOf [] es).mapM (fun p => readField E l data p.1 p.2) with
    | .error e => .error e
    | .ok cs => frame l cs

end Verif.Pds4Table
