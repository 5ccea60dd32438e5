/-
Model of reading binary tables: `pdr/loaders/table.py` 67-134, `pdr/loaders/queries.py` 558-639,
`pdr/pd_utils.py` 157-192, 195-204, 242-268 and 321-369, `pdr/np_utils.py` 17-90, composed with the models of format definitions
(Model/Format) and data types (Model/Datatypes). NumPy 2.
-/
import Verif.Model.Format
import Verif.Model.Datatypes
import Verif.Model.Ibm

namespace Verif.Table
open Verif.Py Verif.Format Verif.Datatypes Verif.Bits Verif.NumPy Verif.Scaling Verif.Float

/-- What the label says about a TABLE. `name` is the name of the object, `tableName` its NAME. -/
structure Block where
  name : Str
  tableName : Option Str := none
  bytes : Option Nat := none
  rows : Option Nat := none
  rowBytes : Option Int := none
  rowPrefix : Option Int := none
  rowSuffix : Option Int := none
  interchange : Option Str := none
  defs : List Def

/-! ### the format definition -/

/-- `str` of an integer -/
def intStr (n : Int) : Str := (toString n).toList

/-- queries.py 609-639 `read_table_structure`: the fields with their names numbered (`reindex_df_values`) -/
def structureOf (b : Block) : List Fld :=
  let fields := readFormatBlock b.tableName none b.bytes b.defs
  List.zipWith (fun f n => { f with name := n }) fields
    (reindexNames (fields.map (·.name)) (fields.map (fun f => intStr f.startByte)))

/-- queries.py 558-566 `_probably_ascii` with `_helpers.py` 22-28 `looks_like_ascii` -/
def probablyAscii (b : Block) (rows : List Row) : Bool :=
  rows.any (fun r => contains r.fld.attrs.dataType c!"ASCII") ||
  contains b.name c!"SPREADSHEET" || contains b.name c!"ASCII" || b.interchange == some c!"ASCII"

/-- a row of the format definition with its dtype -/
structure TCol where
  fld : Fld
  sb : Int
  dt : Dtype

/-- pd_utils.py 157-192 in `insert_sample_types_into_df`. Simplifications: no special cases; of several errors, the
first in table order is reported (the code goes through the types in alphabetical order). -/
def typed (r : Row) : Except PyErr TCol :=
  match sampleTypes r.fld.attrs.dataType (width r.fld) true with
  | .error e => .error e
  | .ok s => match npDtype s with
    | some d => .ok ⟨r.fld, r.sb, d⟩
    | none => .error .typeError

/-- the size of a record with these fields -/
def itemsize (cols : List TCol) : Nat := cols.foldr (fun c m => max (c.sb.toNat + c.dt.size) m) 0

/-- pd_utils.py 195-204 `fmtdef_to_dtype`: numpy wants different names, no negative offsets -/
def structDtype (cols : List TCol) : Except PyErr Nat :=
  if (cols.map (·.fld.name)).Nodup ∧ ∀ c ∈ cols, 0 ≤ c.sb then .ok (itemsize cols) else .error .valueError

/-- queries.py 569-606 `parse_table_structure` for definitions with BYTES and START_BYTE in every column: the columns
with their dtypes and the size of a record, or `none` for a table that is taken to be text -/
def parseStructure (b : Block) : Except PyErr (List Row × Option (List TCol × Nat)) :=
  match computeOffsets (structureOf b) b.rowPrefix b.rowBytes b.rowSuffix with
  | .error e => .error e
  | .ok rows =>
    if probablyAscii b rows then .ok (rows, none)
    else match rows.mapM typed with
      | .error e => .error e
      | .ok cols => match structDtype cols with
        | .error e => .error e
        | .ok n => .ok (rows, some (cols, n))

/-! ### the bytes -/

/-- np_utils.py 70-90 `np_from_buffered_io`: records of `L` bytes. From a compressed file, the bytes of `count` records
(or what there is of them) have to be whole records; from other files, as many records are read as there are. -/
def readRecords (compressed : Bool) (file : Bytes) (start L count : Nat) : Except PyErr (List Bytes) :=
  if L = 0 then .error .valueError
  else if compressed then
    let buf := (file.drop start).take (count * L)
    if buf.length % L ≠ 0 then .error .valueError else .ok (records L (buf.length / L) buf)
  else .ok (records L (min count ((file.drop start).length / L)) (file.drop start))

/-- a column of the table. `floats`: `none` is not a finite number (the sign of zero is left out). `bytes`: Python
bytes objects; `texts`: Python strings. -/
inductive Column
  | ints (t : IntType) (vs : List Int)
  | floats (w : FloatType) (vs : List (Option ℚ))
  | bytes (vs : List Bytes)
  | bools (vs : List Bool)
  | texts (vs : List Str)

/-- two's complement -/
def signedOf (bits w : Nat) : Int := if w < 2 ^ (bits - 1) then w else (w : Int) - 2 ^ bits

/-- the value of an IEEE 754 bit pattern with `m` bits of fraction and `e` of exponent -/
def ieee (m e w : Nat) : Option ℚ :=
  let frac := w % 2 ^ m
  let exp := w / 2 ^ m % 2 ^ e
  let bias : Int := 2 ^ (e - 1) - 1
  let sign : ℚ := if w / 2 ^ (m + e) % 2 = 1 then -1 else 1
  if exp = 2 ^ e - 1 then none
  else if exp = 0 then some (sign * ((frac : ℚ) * 2 ^ (1 - bias - m)))
  else some (sign * (((2 ^ m + frac : Nat) : ℚ) * 2 ^ ((exp : Int) - bias - m)))

/-- numpy's `S` values: NULs at the end are left out -/
def stripNuls (bs : Bytes) : Bytes := (bs.reverse.dropWhile (· = 0)).reverse

/-- the values of a dtype. (Other sizes of ints and floats do not occur.) -/
def decodeAll (d : Dtype) (cells : List Bytes) : Column :=
  let word := fun bs => wordValue (d.order.getD .little) bs
  match d.kind with
  | .int => .ints ⟨true, 8 * d.size⟩ (cells.map (fun bs => signedOf (8 * d.size) (word bs)))
  | .uint => .ints ⟨false, 8 * d.size⟩ (cells.map (fun bs => (word bs : Int)))
  | .float =>
    if d.size = 4 then .floats .f32 (cells.map (fun bs => ieee 23 8 (word bs)))
    else .floats .f64 (cells.map (fun bs => ieee 52 11 (word bs)))
  | .bytes => .bytes (cells.map stripNuls)
  | .void => .bytes cells

/-- what a file and its environment give to the reader. `cp500` is the code page for EBCDIC; `vax32` is what
`vax.from_vax32` (of the package vax) makes of a 32-bit word, where `none` stands for what is not finite. -/
structure Source where
  compressed : Bool
  file : Bytes
  cp500 : UInt8 → Char
  vax32 : Nat → Option ℚ
  R : Rounding double
  R' : Rounding single

/-- pd_utils.py 321-351 `convert_ibm_reals`, one column with words `ws` of `size` bytes. `bytes` is BYTES of the column
(of all its items together). The masks of `ibm_to_np` (np_utils.py 104-134) have to fit into the words, else numpy
refuses (numpy 2; older versions widen the words). -/
def ibmColumn (R : Rounding double) (R' : Rounding single) (bytes size : Nat) (ws : List Nat) : Except PyErr Column :=
  if bytes = 4 then
    if size < 3 then .error .overflowError
    else match Ibm.convertShort R R' ws with
      | .error e => .error e
      | .ok xs =>
        let float := match (ws.map (Ibm.ibm32 R)).map abs with
          | [] => FloatType.f64
          | a :: as => if Ibm.wide R a as then FloatType.f64 else FloatType.f32
        .ok (.floats float (xs.map some))
  else if size < 7 then .error .overflowError
  else .ok (.floats .f64 ((Ibm.convertLong R ws).map some))

/-- table.py 113-134 in `_interpret_as_binary` for one column: values, `convert_ibm_reals`, `convert_vax_reals`
(pd_utils.py 354-369), `convert_ebcdic` (254-268), `booleanize_booleans` (242-251). Bit columns are in Model/BitTable. -/
def columnOf (src : Source) (recs : List Bytes) (c : TCol) : Except PyErr Column :=
  let words := (recs.map (fun r => (r.drop c.sb.toNat).take c.dt.size)).map (wordValue (c.dt.order.getD .little))
  if startsWith c.fld.attrs.dataType c!"IBM" && contains c.fld.attrs.dataType c!"REAL" then
    ibmColumn src.R src.R' c.fld.bytes c.dt.size words
  else if startsWith c.fld.attrs.dataType c!"VAX" && contains c.fld.attrs.dataType c!"REAL" then
    .ok (.floats .f32 (words.map src.vax32))
  else
    let col := decodeAll c.dt (recs.map (fun r => (r.drop c.sb.toNat).take c.dt.size))
    let col := if contains c.fld.attrs.dataType c!"EBCDIC" then
      (match col with
        | .bytes vs => .texts (vs.map (·.map src.cp500))
        | col => col) else col
    .ok (if c.fld.attrs.dataType = c!"BOOLEAN" then
      (match col with
        | .ints _ vs => .bools (vs.map (fun v => decide (v ≠ 0)))
        | col => col) else col)

/-! ### scaling -/

/-- A column of numbers of the format definition: integers only if every row has an integer, else floats -/
def unify (R : Rounding double) (ns : List (Option Num)) : List (Option Num) :=
  if ns.all (fun n => match n with | some (.int _) => true | _ => false) then ns
  else ns.map (Option.map (fun n => .float (R.fl n.val)))

/-- an operation on floats: results that are too large are infinite -/
def fop {F : Format} (R : Rounding F) (op : ℚ → ℚ → ℚ) (s : ℚ) (v : Option ℚ) : Option ℚ :=
  match v with
  | none => none
  | some x => if |op x s| < limit F then some (R.fl (op x s)) else none

/-- `column * n` and `column + n`. An integer column with a Python integer keeps its dtype, which has to hold the
number, and wraps around; with a float it becomes float64. float32 columns stay float32. Columns that do not hold
numbers are a TypeError here (in Python, bytes times an integer is a repetition, and booleans count as integers). -/
def arith (R : Rounding double) (R' : Rounding single) (op : ℚ → ℚ → ℚ) (iop : Int → Int → Int) :
    Column → Num → Except PyErr Column
  | .ints t vs, .int n =>
    if lo t ≤ n ∧ n ≤ hi t then .ok (.ints t (vs.map (fun v => wrap t (iop v n)))) else .error .overflowError
  | .ints _ vs, .float x => .ok (.floats .f64 (vs.map (fun (v : Int) => fop R op x (some (R.fl v)))))
  | .floats .f32 vs, n =>
    if |n.val| < limit single then .ok (.floats .f32 (vs.map (fop R' op (R'.fl n.val))))
    else .ok (.floats .f32 (vs.map (fun _ => none)))
  | .floats .f64 vs, n =>
    if |n.val| < limit double then .ok (.floats .f64 (vs.map (fop R op (R.fl n.val))))
    else .error .overflowError                     -- `int too large to convert to float`
  | _, _ => .error .typeError

/-- `if record.get(...) and not pd.isnull(...)`: a number that is there and not zero -/
def applyNum (R : Rounding double) (R' : Rounding single) (op : ℚ → ℚ → ℚ) (iop : Int → Int → Int) (c : Column) :
    Option Num → Except PyErr Column
  | some n => if n.val = 0 then .ok c else arith R R' op iop c n
  | none => .ok c

/-- table.py 99-109 for one column -/
def scaleCol (R : Rounding double) (R' : Rounding single) (c : Column) (scale offset : Option Num) : Except PyErr Column :=
  match applyNum R R' (· * ·) (· * ·) c scale with
  | .error e => .error e
  | .ok c => applyNum R R' (· + ·) (· + ·) c offset

/-! ### the table -/

/-- table.py 73-110 `read_table` for binary tables: column names and columns. `none`: the table is taken to be text
(that path is not modelled here). -/
def readTable (src : Source) (b : Block) (start : Nat) : Except PyErr (Option (List (Str × Column))) :=
  match parseStructure b with
  | .error e => .error e
  | .ok (_, none) => .ok none
  | .ok (_, some (cols, L)) =>
    match readRecords src.compressed src.file start L (b.rows.getD 1) with
    | .error e => .error e
    | .ok recs =>
      match cols.mapM (columnOf src recs) with
      | .error e => .error e
      | .ok columns =>
        let scales := unify src.R (cols.map (·.fld.attrs.scale))
        let offsets := unify src.R (cols.map (·.fld.attrs.offset))
        let all := (cols.map (·.fld.name)).zip (columns.zip (scales.zip offsets))
        -- `_drop_placeholders`
        let kept := all.filter (fun q => !contains q.1 c!"PLACEHOLDER")
        match kept.mapM (fun q => (scaleCol src.R src.R' q.2.1 q.2.2.1 q.2.2.2).map (fun c => (q.1, c))) with
        | .error e => .error e
        | .ok out => .ok (some out)

end Verif.Table
