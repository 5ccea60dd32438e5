/-
Specification of PDS3 products: what a label says about a table or an image, and where it says they are.
-/
import Verif.Spec.Metadata
import Verif.Spec.Table
import Verif.Spec.ImageFile
import Verif.Model.Literal

namespace Verif.Product.Spec
open Verif.Py Verif.Pvl Verif.Pvl.Spec Verif.Literal Verif.Format.Spec

/-- The first entry of that name in a block is this value. -/
def Has (b : MDict Val) (k : Str) (v : Val) : Prop := ∃ pre post, b = pre ++ (k, .leaf v) :: post ∧ k ∉ pre.map Prod.fst

/-- The block has no entry of that name. -/
def Lacks (b : MDict Val) (k : Str) : Prop := k ∉ b.map Prod.fst

/-- a count that can be left out -/
def OptNat (b : MDict Val) (k : Str) : Option Nat → Prop
  | none => Lacks b k
  | some n => Has b k (.int n)

/-- a number that can be left out -/
def OptInt (b : MDict Val) (k : Str) : Option Int → Prop
  | none => Lacks b k
  | some n => Has b k (.int n)

/-- a text that can be left out -/
def OptStr (b : MDict Val) (k : Str) : Option Str → Prop
  | none => Lacks b k
  | some s => Has b k (.str s)

/-- a factor or offset: an integer, a real number (as a float), or none -/
def Number (R : Float.Rounding Float.double) (b : MDict Val) (k : Str) : Option Scaling.Num → Prop
  | none => Lacks b k
  | some (.int n) => Has b k (.int n)
  | some (.float x) => ∃ q, Has b k (.real q) ∧ x = R.fl q

/-- A pointer occurs only once; there may be several to format files (and to PDS_OBJECTs). -/
def Once (tree : MDict Str) : Prop := ∀ r, (keys tree).count ('^' :: r) ≤ 1 ∨ c!"STRUCTURE" <:+: r ∨ c!"PDS_OBJECT" <:+: r

/-! ### format files -/

/-- What the files say that pointers name; `none`: there is no such file. -/
abbrev Files := Val → Option (MDict Val)

/-- names of pointers to format files: `^STRUCTURE` or, say, `^ROW_STRUCTURE` -/
def ToFormatFile (k : Str) : Prop :=
  k = c!"^STRUCTURE" ∨ ∃ w : Str, w ≠ [] ∧ (∀ c ∈ w, c.isAlphanum = true ∨ c = '_') ∧ k = '^' :: (w ++ c!"_STRUCTURE")

/-- What a format file stands for: its contents; if that is a single TABLE, the contents of that. -/
inductive Contents (files : Files) (v : Val) : MDict Val → Prop
  | table {k : Str} {kids : MDict Val} : files v = some [(k, .node kids)] → c!"TABLE" <:+: k → Contents files v kids
  | all {b : MDict Val} : files v = some b → (∀ k t, b = [(k, t)] → ¬ c!"TABLE" <:+: k) → Contents files v b

/-- The second block is the first with the contents of format files instead of the pointers to them. -/
inductive Injected (files : Files) : MDict Val → MDict Val → Prop
  | nil : Injected files [] []
  | keep {k : Str} {t : Pvl.Tree Val} {rest out : MDict Val} : ¬ ToFormatFile k → Injected files rest out →
      Injected files ((k, t) :: rest) ((k, t) :: out)
  | file {k : Str} {v : Val} {c rest out : MDict Val} : ToFormatFile k → Contents files v c → Injected files rest out →
      Injected files ((k, .leaf v) :: rest) (c ++ out)

/-- The definition of a column: what its block says, or, if that has a pointer `^STRUCTURE`, what it says with the contents of format files. -/
inductive ColumnText (files : Files) (b : MDict Val) : MDict Val → Prop
  | plain : Lacks b c!"^STRUCTURE" → ColumnText files b b
  | files {d : MDict Val} : ¬ Lacks b c!"^STRUCTURE" → Injected files b d → ColumnText files b d

/-! ### columns -/

/-- the names of entries that describe the structure of a table -/
def structural : List Str := [c!"ARRAY", c!"COLLECTION", c!"COLUMN", c!"CONTAINER", c!"ELEMENT", c!"FIELD", c!"PRIMITIVE_ARRAY", c!"STRUCTURE"]

/-- The block describes this bit column. -/
structure BitSays (b : MDict Val) (d : Bits.BitDef) : Prop where
  name : OptStr b c!"NAME" d.name
  items : OptInt b c!"ITEMS" d.items
  itemBits : OptInt b c!"ITEM_BITS" d.itemBits
  startBit : OptInt b c!"START_BIT" d.startBit
  bits : OptInt b c!"BITS" d.bits

/-- The BIT_COLUMNs of a block are these, in this order. -/
inductive BitColumns : MDict Val → List Bits.BitDef → Prop
  | nil : BitColumns [] []
  | skip {k : Str} {t : Pvl.Tree Val} {rest : MDict Val} {ds : List Bits.BitDef} : k ≠ c!"BIT_COLUMN" → BitColumns rest ds →
      BitColumns ((k, t) :: rest) ds
  | column {b rest : MDict Val} {d : Bits.BitDef} {ds : List Bits.BitDef} : BitSays b d → BitColumns rest ds →
      BitColumns ((c!"BIT_COLUMN", .node b) :: rest) (d :: ds)

/-- The block says this about bit columns: there are none; or these, and the first has this BIT_DATA_TYPE. -/
def BitsSay (b : MDict Val) : Option Bits.BitObj → Prop
  | none => Lacks b c!"BIT_COLUMN"
  | some o => o.lists = none ∧ BitColumns b o.defs ∧
      ∃ pre kids post, b = pre ++ (c!"BIT_COLUMN", .node kids) :: post ∧ Lacks pre c!"BIT_COLUMN" ∧ OptStr kids c!"BIT_DATA_TYPE" o.bitType

/-- The block describes this column. -/
structure ColumnSays (R : Float.Rounding Float.double) (b : MDict Val) (c : Col) : Prop where
  name : Has b c!"NAME" (.str c.name)
  start : Has b c!"START_BYTE" (.int c.start)
  bytes : Has b c!"BYTES" (.int c.bytes)
  items : OptNat b c!"ITEMS" c.items
  itemBytes : OptNat b c!"ITEM_BYTES" c.itemBytes
  itemOffset : OptNat b c!"ITEM_OFFSET" c.itemOffset
  dataType : Has b c!"DATA_TYPE" (.str c.attrs.dataType)
  scale : Number R b c!"SCALING_FACTOR" c.attrs.scale
  offset : Number R b c!"OFFSET" c.attrs.offset
  bits : BitsSay b c.attrs.bits
  noElements : Lacks b c!"BIT_ELEMENT"

/-- The block describes these columns, in this order, among entries that have nothing to do with structure. Pointers to format files
stand for what is in these files. -/
inductive Columns (R : Float.Rounding Float.double) (files : Files) : MDict Val → List Col → Prop
  | nil : Columns R files [] []
  | skip {k : Str} {t : Pvl.Tree Val} {rest : MDict Val} {cs : List Col} : k ∉ structural → ¬ ToFormatFile k →
      Columns R files rest cs → Columns R files ((k, t) :: rest) cs
  | file {k : Str} {v : Val} {c rest : MDict Val} {cs : List Col} : ToFormatFile k → Contents files v c →
      Columns R files (c ++ rest) cs → Columns R files ((k, .leaf v) :: rest) cs
  | column {k : Str} {b d rest : MDict Val} {c : Col} {cs : List Col} : k ∈ [c!"COLUMN", c!"FIELD", c!"ELEMENT"] →
      ColumnText files b d → ColumnSays R d c → Columns R files rest cs → Columns R files ((k, .node b) :: rest) (c :: cs)

/-- The block describes these columns and containers of columns, in this order. -/
inductive Defines (R : Float.Rounding Float.double) (files : Files) : MDict Val → List Entry → Prop
  | nil : Defines R files [] []
  | skip {k : Str} {t : Pvl.Tree Val} {rest : MDict Val} {es : List Entry} : k ∉ structural → ¬ ToFormatFile k →
      Defines R files rest es → Defines R files ((k, t) :: rest) es
  | file {k : Str} {v : Val} {c rest : MDict Val} {es : List Entry} : ToFormatFile k → Contents files v c →
      Defines R files (c ++ rest) es → Defines R files ((k, .leaf v) :: rest) es
  | column {k : Str} {b d rest : MDict Val} {c : Col} {es : List Entry} : k ∈ [c!"COLUMN", c!"FIELD", c!"ELEMENT"] →
      ColumnText files b d → ColumnSays R d c → Defines R files rest es → Defines R files ((k, .node b) :: rest) (.col c :: es)
  | container {k : Str} {b rest : MDict Val} {n : Str} {s : Int} {bytes : Nat} {r : Option Nat} {cs : List Col} {es : List Entry} :
      k ∈ [c!"CONTAINER", c!"COLLECTION"] → Has b c!"NAME" (.str n) → Has b c!"START_BYTE" (.int s) → Has b c!"BYTES" (.int bytes) →
      OptNat b c!"REPETITIONS" r → Columns R files b cs → Defines R files rest es →
      Defines R files ((k, .node b) :: rest) (.cont n s bytes r cs :: es)

/-- The block describes this table. -/
structure TableSays (R : Float.Rounding Float.double) (files : Files) (b : MDict Val) (t : Table.Block) (es : List Entry) : Prop where
  tableName : OptStr b c!"NAME" t.tableName
  bytes : OptNat b c!"BYTES" t.bytes
  rows : OptNat b c!"ROWS" t.rows
  rowBytes : OptInt b c!"ROW_BYTES" t.rowBytes
  rowPrefix : OptInt b c!"ROW_PREFIX_BYTES" t.rowPrefix
  rowSuffix : OptInt b c!"ROW_SUFFIX_BYTES" t.rowSuffix
  interchange : OptStr b c!"INTERCHANGE_FORMAT" t.interchange
  once : Lacks b c!"REPETITIONS"
  columns : Defines R files b es
  defs : t.defs = es.map Entry.toDef

/-- The block describes this image, with this SAMPLE_TYPE. -/
structure ImageSays (b : MDict Val) (i : Image.ImageBlock) (sampleType : Str) : Prop where
  sampleBits : Has b c!"SAMPLE_BITS" (.int i.sampleBits)
  sampleType : Has b c!"SAMPLE_TYPE" (.str sampleType)
  lines : Has b c!"LINES" (.int i.lines)
  lineSamples : Has b c!"LINE_SAMPLES" (.int i.lineSamples)
  bands : OptNat b c!"BANDS" i.bands
  storage : OptStr b c!"BAND_STORAGE_TYPE" i.bst
  linePrefix : OptNat b c!"LINE_PREFIX_BYTES" i.linePrefixBytes
  lineSuffix : OptNat b c!"LINE_SUFFIX_BYTES" i.lineSuffixBytes
  noPlanes : ∀ e ∈ b, ¬ c!"FIX_ITEM_BYTES" <:+ e.1

/-! ### places -/

/-- The size of a record: RECORD_BYTES of the block, or else of the label; if neither has one, there is none. -/
inductive RecordSize (label block : MDict Val) : Option Nat → Prop
  | own {n : Nat} : Has block c!"RECORD_BYTES" (.int n) → RecordSize label block (some n)
  | label {n : Nat} : Lacks block c!"RECORD_BYTES" → Meta.Spec.First c!"RECORD_BYTES" label (.leaf (.int n)) → RecordSize label block (some n)
  | none : Lacks block c!"RECORD_BYTES" → c!"RECORD_BYTES" ∉ keys label → RecordSize label block Option.none

/-- Where an object starts: at byte 0 of a file of its own, at record `n` (from 1), or at byte `n` (from 1). -/
inductive Place (record : Option Nat) : Val → Nat → Prop
  | file {s : Str} : Place record (.str s) 0
  | first : Place record (.int 1) 0
  | record {n r : Nat} : record = some r → Place record (.int (n + 1 : Nat)) (n * r)
  | records {n r : Nat} {u : Str} : record = some r → u ≠ c!"BYTES" → Place record (.quantity (.int (n + 1 : Nat)) (.str u)) (n * r)
  | bytes {n : Nat} : Place record (.quantity (.int (n + 1 : Nat)) (.str c!"BYTES")) n

/-- The pointer says that the object starts there; with a file name, the place follows. -/
inductive Starts (record : Option Nat) : Val → Nat → Prop
  | place {v : Val} {n : Nat} : Place record v n → Starts record v n
  | inFile {file : Str} {v : Val} {n : Nat} : Place record v n → Starts record (.tuple [.str file, v]) n

/-- The numbers that are used to locate an object are whole numbers, where they are given. -/
structure Extent (label block : MDict Val) : Prop where
  numbers : ∀ k ∈ [c!"RECORD_BYTES", c!"BYTES", c!"RECORDS", c!"ROWS", c!"ROW_BYTES", c!"ROW_SUFFIX_BYTES"], ∃ n, OptInt block k n
  whole : c!"RECORD_BYTES" ∉ keys label ∨ ∃ n : Int, Meta.Spec.First c!"RECORD_BYTES" label (.leaf (.int n))

end Verif.Product.Spec
