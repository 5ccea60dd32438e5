/-
Model of what `Data.load` does with a TABLE or an IMAGE of a PDS3 product, from the parsed label on: looking up the block and the
pointer of the object (`pdr/loaders/queries.py` 310-343), the label-wide identifiers (`pdr/pdr.py` 184-197), the place in the file
(queries.py 395-522) and the format definition (queries.py 569-795, 201-247), and then reading the values (`pdr/loaders/table.py`
73-134, `pdr/loaders/image.py` 18-52). It composes the models of labels, metadata, locations, tables and images.

Simplifications: no special cases (C100 is about those), no interleaved objects, and the file that holds the object and the format
files are given (C19, C86 and C110 are about finding files). The result is `none` (not modelled) for definitions that use something
this model leaves out: ARRAYs in tables, values of unexpected kinds.
-/
import Verif.Model.Label
import Verif.Model.Metadata
import Verif.Model.Locate
import Verif.Model.ImageFile
import Verif.Model.BitTable
import Verif.Model.Objects

namespace Verif.Product
open Verif.Py Verif.Pvl Verif.Literal Verif.Format

/-! ### the label of an object -/

/-- `block.get(key)`: a MultiDict gives the first entry of that name (queries.py 716-720, 777-779) -/
def field (b : MDict Val) (k : Str) : Option (Pvl.Tree Val) := (b.find? (fun e => e.1 == k)).map Prod.snd

/-- `key in block` -/
def has (b : MDict Val) (k : Str) : Bool := (field b k).isSome

/-- A key that has to be there, or can be absent: queries.py 716-718 `block.get(...)`. `none`: a value that is not modelled. -/
def optField {α : Type} (conv : Val → Option α) (b : MDict Val) (k : Str) : Option (Option α) :=
  match field b k with
  | none => some none
  | some (.leaf v) => (conv v).map some
  | some (.node _) => none

/-- … that has to be there (queries.py 671: `definition['START_BYTE']`; columns without it are not modelled) -/
def reqField {α : Type} (conv : Val → Option α) (b : MDict Val) (k : Str) : Option α := (optField conv b k).join

/-- numbers of the label: positions (queries.py 718) -/
def toInt : Val → Option Int
  | .int n => some n
  | _ => none
/-- numbers of the label: sizes and counts (queries.py 718) -/
def toNat : Val → Option Nat
  | .int n => if 0 ≤ n then some n.toNat else none
  | _ => none
/-- texts of the label (queries.py 717) -/
def toStr : Val → Option Str
  | .str s => some s
  | _ => none
/-- SCALING_FACTOR and OFFSET (table.py 99-109): real numbers are floats -/
def toNum (R : Float.Rounding Float.double) : Val → Option Scaling.Num
  | .int n => some (.int n)
  | .real q => some (.float (R.fl q))
  | _ => none

/-! ### format files -/

/-- queries.py 846-875 `load_format_file`: what the format file that a pointer names says. `none`: there is no such file or it is no
label; then the table cannot be read. (The search for the file is part of C110, reading it of C98.) -/
abbrev Files := Val → Option (MDict Val)

/-- queries.py 837-840: a format file with nothing but one TABLE stands for the contents of that -/
def unwrap : MDict Val → Option (MDict Val)
  | [(k, .node kids)] => if contains k c!"TABLE" then some kids else some [(k, .node kids)]
  | [(k, .leaf v)] => if contains k c!"TABLE" then none else some [(k, .leaf v)]
  | b => some b

/-- queries.py 827-842: an entry, or what stands for it -/
def injectEntry (files : Files) : Str × Pvl.Tree Val → Option (MDict Val)
  | (k, .leaf v) => if Objects.structurePointer k then (files v).bind unwrap else some [(k, .leaf v)]
  | (k, .node kids) => if Objects.structurePointer k then none else some [(k, .node kids)]

/-- queries.py 816-843 `inject_format_files` -/
def inject (files : Files) (b : MDict Val) : Option (MDict Val) := (b.mapM (injectEntry files)).map List.flatten

/-- queries.py 721-722: the loop; `none` if it is still running after so many rounds (or a file cannot be had) -/
def injectAll (files : Files) : Nat → MDict Val → Option (MDict Val)
  | 0, b => if b.any (fun e => Objects.structurePointer e.1) then none else some b
  | fuel + 1, b => if b.any (fun e => Objects.structurePointer e.1) then (inject files b).bind (injectAll files fuel) else some b

/-! ### columns -/

/-- bit_handling.py 201-218: what is read of a BIT_COLUMN -/
def bitDef : Pvl.Tree Val → Option Bits.BitDef
  | .leaf _ => none
  | .node b => do
    let name ← optField toStr b c!"NAME"
    let items ← optField toInt b c!"ITEMS"
    let itemBits ← optField toInt b c!"ITEM_BITS"
    let startBit ← optField toInt b c!"START_BIT"
    let bits ← optField toInt b c!"BITS"
    pure { name := name, items := items, itemBits := itemBits, startBit := startBit, bits := bits }

/-- bit_handling.py 168-170: the BIT_DATA_TYPE of the first BIT_COLUMN -/
def bitType : Pvl.Tree Val → Option (Option Str)
  | .leaf _ => none
  | .node b => optField toStr b c!"BIT_DATA_TYPE"

/-- handlers.py 272-273, bit_handling.py 201: the BIT_COLUMNs of a column, all of them, in the order of the label -/
def bitObj (b : MDict Val) : Option (Option Bits.BitObj) :=
  match b.filter (fun e => e.1 == c!"BIT_COLUMN") with
  | [] => some none
  | e :: es => do
    let defs ← (e :: es).mapM (fun e => bitDef e.2)
    let type ← bitType e.2
    pure (some { defs := defs, bitType := type })

/-- queries.py 737-743: the definition of a column, with the format files it points to (if one pointer is called `^STRUCTURE`). What
these point to is not followed. -/
def columnText (files : Files) (b : MDict Val) : Option (MDict Val) := if has b c!"^STRUCTURE" then inject files b else some b

/-- queries.py 744-763: a column; BIT_ELEMENTs are refused (748-751) -/
def columnDef (R : Float.Rounding Float.double) (files : Files) (text : MDict Val) : Option Def := do
  let b ← columnText files text
  if has b c!"BIT_ELEMENT" then none
  else do
    let name ← reqField toStr b c!"NAME"
    let start ← reqField toInt b c!"START_BYTE"
    let bytes ← reqField toNat b c!"BYTES"
    let items ← optField toNat b c!"ITEMS"
    let itemBytes ← optField toNat b c!"ITEM_BYTES"
    let itemOffset ← optField toNat b c!"ITEM_OFFSET"
    let dataType ← reqField toStr b c!"DATA_TYPE"
    let scale ← optField (toNum R) b c!"SCALING_FACTOR"
    let offset ← optField (toNum R) b c!"OFFSET"
    let bits ← bitObj b
    pure (.column name start bytes items itemBytes itemOffset { dataType := dataType, scale := scale, offset := offset, bits := bits })

/-- queries.py 764-777: a container, with the definitions of what it contains -/
def containerDef (b : MDict Val) (children : List Def) : Option Def := do
  let name ← reqField toStr b c!"NAME"
  let start ← reqField toInt b c!"START_BYTE"
  let bytes ← optField toNat b c!"BYTES"
  let reps ← optField toNat b c!"REPETITIONS"
  pure (.container name start bytes reps children)

/-- queries.py 724-790: one entry of a definition (`some []`: it has nothing to do with the structure, 725-727). ARRAYs in tables are
not modelled. `inner`: `read_format_block` for what is in a container. -/
def entryDefs (R : Float.Rounding Float.double) (files : Files) (inner : MDict Val → Option (List Def)) : Str × Pvl.Tree Val → Option (List Def)
  | (k, .leaf _) =>
    if [c!"ARRAY", c!"COLLECTION", c!"COLUMN", c!"CONTAINER", c!"ELEMENT", c!"FIELD", c!"PRIMITIVE_ARRAY", c!"STRUCTURE"].contains k then none
    else some []
  | (k, .node kids) =>
    if [c!"COLUMN", c!"FIELD", c!"ELEMENT"].contains k then (columnDef R files kids).map (fun d => [d])
    else if [c!"CONTAINER", c!"COLLECTION"].contains k then ((inner kids).bind (containerDef kids)).map (fun d => [d])
    else if [c!"ARRAY", c!"PRIMITIVE_ARRAY", c!"STRUCTURE"].contains k then none
    else some []

/-- queries.py 695-790 `read_format_block`: the definitions, after the format files have been put in. The number bounds the depth of
containers and the rounds of the loop of 721-722; `none` if that does not do. -/
def defsOf (R : Float.Rounding Float.double) (files : Files) : Nat → MDict Val → Option (List Def)
  | 0, _ => none
  | fuel + 1, b => (injectAll files fuel b).bind (fun b => (b.mapM (entryDefs R files (defsOf R files fuel))).map List.flatten)

/-- queries.py 569-606: what the code reads of the block of a TABLE. HISTOGRAMs and objects that are called CONTAINER are different
(622, 792). -/
def tableBlock (R : Float.Rounding Float.double) (files : Files) (fuel : Nat) (name : Str) (b : MDict Val) : Option Table.Block :=
  if contains name c!"HISTOGRAM" || name == c!"CONTAINER" || has b c!"REPETITIONS" then none
  else do
    let tableName ← optField toStr b c!"NAME"
    let bytes ← optField toNat b c!"BYTES"
    let rows ← optField toNat b c!"ROWS"
    let rowBytes ← optField toInt b c!"ROW_BYTES"
    let rowPrefix ← optField toInt b c!"ROW_PREFIX_BYTES"
    let rowSuffix ← optField toInt b c!"ROW_SUFFIX_BYTES"
    let interchange ← optField toStr b c!"INTERCHANGE_FORMAT"
    let defs ← defsOf R files fuel b
    pure { name := name, tableName := tableName, bytes := bytes, rows := rows, rowBytes := rowBytes, rowPrefix := rowPrefix,
           rowSuffix := rowSuffix, interchange := interchange, defs := defs }

/-- queries.py 201-247: what the code reads of the block of an IMAGE, and its SAMPLE_TYPE (`""` if there is none). QUBEs are different
(179), and so are images with `..._ITEM_BYTES` (91). -/
def imageBlock (name : Str) (b : MDict Val) : Option (Image.ImageBlock × Str) :=
  if contains name c!"QUBE" || b.any (fun e => endsWith e.1 c!"FIX_ITEM_BYTES") then none
  else do
    let sampleBits ← reqField toNat b c!"SAMPLE_BITS"
    let sampleType ← optField toStr b c!"SAMPLE_TYPE"
    let lines ← reqField toNat b c!"LINES"
    let lineSamples ← reqField toNat b c!"LINE_SAMPLES"
    let bands ← optField toNat b c!"BANDS"
    let bst ← optField toStr b c!"BAND_STORAGE_TYPE"
    let pre ← optField toNat b c!"LINE_PREFIX_BYTES"
    let suf ← optField toNat b c!"LINE_SUFFIX_BYTES"
    pure ({ sampleBits := sampleBits, lines := lines, lineSamples := lineSamples, bands := bands, bst := bst,
            linePrefixBytes := pre, lineSuffixBytes := suf }, sampleType.getD [])

/-! ### where the object is -/

/-- values that take part in locating an object (queries.py 395-522) -/
def toLoc : Val → Option Locate.Val
  | .int n => some (.int n)
  | .str s => some (.str s)
  | .none => some .none
  | _ => none

/-- the keys of a block that are used to locate it (queries.py 401, 413-415, 428-489) -/
def locBlock (b : MDict Val) : Option Locate.Blk := do
  let recordBytes ← optField toLoc b c!"RECORD_BYTES"
  let bytes ← optField toLoc b c!"BYTES"
  let records ← optField toLoc b c!"RECORDS"
  let rows ← optField toLoc b c!"ROWS"
  let rowBytes ← optField toLoc b c!"ROW_BYTES"
  let rowSuffixBytes ← optField toLoc b c!"ROW_SUFFIX_BYTES"
  pure { recordBytes := recordBytes, bytes := bytes, records := records, rows := rows, rowBytes := rowBytes,
         rowSuffixBytes := rowSuffixBytes }

/-- one place (queries.py 408-420): a quantity is a dictionary with `value` and `units` -/
def toItem : Val → Option Locate.Item
  | .quantity (.int n) (.str u) => some (.quantity n u)
  | v => (toLoc v).map .val

/-- queries.py 406: the value of a pointer -/
def toTarget : Val → Option Locate.Target
  | .tuple xs => (xs.mapM toItem).map .seq
  | .list xs => (xs.mapM toItem).map .seq
  | v => (toItem v).map .item

/-! ### the product -/

/-- the default of a lookup is None or a text (pdr.py 111, 190) -/
abbrev State := Meta.State Val Locate.Val Locate.Val

/-- Python's None among the values of labels (pdr.py 1213-1216); None and texts are hashable (pdr.py 125-135) -/
def env : Meta.Env Val Locate.Val Locate.Val where
  isNone v := match v with | .none => true | _ => false
  hashable _ := true
  key := id

/-- pdr.py 189-192 in `_init_identifiers`: RECORD_BYTES of the label, `""` if there is none -/
def recordBytes (s : State) : Option Locate.Val :=
  match (Meta.metaget env s c!"RECORD_BYTES" (.str []) false).2.1 with
  | .ok (.inr d) => some d
  | .ok (.inl (.leaf v)) => toLoc v
  | _ => none

/-- pdr.py 189-197: RECORD_TYPE of the label, if that is a text (it is only compared with `STREAM`, _helpers.py 94) -/
def recordType (s : State) : Str :=
  match (Meta.metaget env s c!"RECORD_TYPE" (.str []) false).2.1 with
  | .ok (.inl (.leaf (.str t))) => t
  | _ => []

/-- queries.py 331-343 `get_target`; parselabel/pds3.py 365-367 `pointerize` (names of objects do not begin with `^`: datawrap.py 55) -/
def getTarget (s : State) (name : Str) : Option Locate.Target :=
  let r := Meta.metaget env s name .none true
  match r.2.1 with
  | .ok (.inl (.leaf v)) => toTarget v
  | .error _ => none
  | _ => match (Meta.metaget env r.1 ('^' :: name) .none true).2.1 with
    | .ok (.inl (.leaf v)) => toTarget v
    | .ok (.inr _) => some (.item (.val .none))
    | _ => none

/-- queries.py 310-343 and 395-425: the block of the object and its first byte -/
def locate (s : State) (name : Str) (fileSize : Nat) : Option (MDict Val × Locate.Blk × Locate.Val × Locate.Target × Except PyErr Int) := do
  let rb ← recordBytes s
  let q := Meta.metablock s name true
  let block ← q.2.1
  let blk ← locBlock block
  let target ← getTarget q.1 name
  pure (block, blk, rb, target, Locate.dataStartByte rb (some blk) target fileSize)

/-- a TABLE: datawrap.py 106-119 `ReadTable`. The position is computed even if only ASCII tables use it, and can fail. `ids`: what
the special cases of bit columns look at (Model/BitTable). -/
def table (ids : BitTable.Ids) (files : Files) (fuel : Nat) (src : Table.Source) (s : State) (name : Str) :
    Option (Except PyErr (Option (List (Str × BitTable.BColumn)))) := do
  let l ← locate s name src.file.length
  let tb ← tableBlock src.R files fuel name l.1
  pure (match l.2.2.2.2 with
    | .error e => .error e
    | .ok start => match Locate.tablePosition l.2.2.1 (recordType s) name (some l.2.1) l.2.2.2.1 start with
      | .error e => .error e
      | .ok _ => BitTable.readBitTable ids src tb start.toNat)

/-- an IMAGE: datawrap.py 77-103 `ReadImage` -/
def image (src : ImageFile.Input) (s : State) (name : Str) : Option (Except PyErr (Option (Image.Arr ImageFile.Elem))) := do
  let l ← locate s name src.file.length
  let ib ← imageBlock name l.1
  pure (match l.2.2.2.2 with
    | .error e => .error e
    | .ok start => ImageFile.imageObject src name ib.1 ib.2 start.toNat)

/-- pdr.py 82-109: the metadata of a product, from its label file (`read_pvl` with `deduplicate_pointers`) -/
def openLabel (gb : Bool → Bytes → Option Str) (fn : Str) (stream : Bytes) (m : Int) (strict : Bool) : Except PyErr State :=
  match Label.readPvl gb fn stream true m strict with
  | .error e => .error e
  | .ok (dict, params) => .ok { dict := dict, params := params }

end Verif.Product
