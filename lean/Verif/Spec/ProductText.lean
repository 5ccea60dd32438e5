/-
Specification of text tables in PDS3 products: what a label says about where their text is.
-/
import Verif.Spec.Product
import Verif.Spec.AsciiTable

namespace Verif.Product.Spec
open Verif.Py Verif.Pvl Verif.Pvl.Spec Verif.Literal Verif.Format.Spec

/-- The number of records: RECORDS, or else ROWS. -/
inductive Records (block : MDict Val) : Option Nat → Prop
  | records {n : Nat} : Has block c!"RECORDS" (.int n) → Records block (some n)
  | rows {n : Nat} : Lacks block c!"RECORDS" → Has block c!"ROWS" (.int n) → Records block (some n)
  | none : Lacks block c!"RECORDS" → Lacks block c!"ROWS" → Records block none

/-- The length of the records of a text table: RECORD_BYTES of the block, or else its ROW_BYTES and ROW_SUFFIX_BYTES, or else
RECORD_BYTES of the label. -/
inductive RowLength (label block : MDict Val) : Nat → Prop
  | own {n : Nat} : Has block c!"RECORD_BYTES" (.int n) → RowLength label block n
  | rows {w : Nat} {s : Option Nat} : Lacks block c!"RECORD_BYTES" → Has block c!"ROW_BYTES" (.int w) → OptNat block c!"ROW_SUFFIX_BYTES" s →
      RowLength label block (w + s.getD 0)
  | label {n : Nat} : Lacks block c!"RECORD_BYTES" → Lacks block c!"ROW_BYTES" → Meta.Spec.First c!"RECORD_BYTES" label (.leaf (.int n)) →
      RowLength label block n

/-- How many bytes the text has: BYTES of the block; or else the length of a record for every record; `none`: all that follow. -/
inductive TextLength (label block : MDict Val) : Option Nat → Prop
  | given {n : Nat} : Has block c!"BYTES" (.int n) → TextLength label block (some n)
  | records {n r : Nat} : Lacks block c!"BYTES" → Records block (some n) → RowLength label block r → TextLength label block (some (r * n))
  | rest : Lacks block c!"BYTES" → Records block Option.none → TextLength label block Option.none

/-- The label has records without a size: it says STREAM and nothing about bytes, and the name of the object says that it is text. -/
structure Stream (label block : MDict Val) (name : Str) : Prop where
  stream : Meta.Spec.First c!"RECORD_TYPE" label (.leaf (.str c!"STREAM"))
  noRecords : c!"RECORD_BYTES" ∉ keys label
  noBytes : Lacks block c!"BYTES"
  text : c!"ASCII" <:+: name ∨ c!"SPREADSHEET" <:+: name

/-- a pointer to a byte -/
inductive InBytes : Val → Prop
  | here {v : Val} : InBytes (.quantity v (.str c!"BYTES"))
  | inFile {f : Str} {v : Val} : InBytes (.tuple [.str f, .quantity v (.str c!"BYTES")])

/-- a number or nothing -/
def length : Option Nat → Locate.Val
  | none => .none
  | some n => .int n

/-- Where the text of a table is: so many bytes from the start of the object on; or, in a stream, so many lines from the first on. -/
inductive TextAt (label block : MDict Val) (name : Str) (v : Val) (start : Nat) : Locate.TablePos → Prop
  | bytes {n : Option Nat} : ¬ Stream label block name ∨ InBytes v → ¬ c!"HEADER" <:+: name → TextLength label block n →
      TextAt label block name v start ⟨start, length n, false⟩
  | lines {n : Option Nat} : Stream label block name → (∃ f : Str, v = .str f ∧ 2 ≤ f.length ∨ v = .tuple [.str f, .int 1]) →
      ¬ c!"HEADER" <:+: name → Records block n → TextAt label block name v start ⟨0, length n, true⟩

/-- The block describes this field of a spreadsheet; `bytes`: it says how many bytes it has at most. -/
structure FieldSays (R : Float.Rounding Float.double) (bytes : Bool) (b : MDict Val) (f : Ascii.Field) : Prop where
  name : Has b c!"NAME" (.str f.name)
  bytes : if bytes then ∃ n : Nat, Has b c!"BYTES" (.int n) else Lacks b c!"BYTES"
  items : OptNat b c!"ITEMS" f.items
  dataType : ∃ t, Has b c!"DATA_TYPE" (.str t)
  scale : Number R b c!"SCALING_FACTOR" f.scale
  offset : Number R b c!"OFFSET" f.offset
  noStart : Lacks b c!"START_BYTE"
  noBits : Lacks b c!"BIT_COLUMN"
  noElements : Lacks b c!"BIT_ELEMENT"

/-- The block describes these fields, in this order, among entries that have nothing to do with structure. -/
inductive SheetFields (R : Float.Rounding Float.double) (files : Files) (bytes : Bool) : MDict Val → List Ascii.Field → Prop
  | nil : SheetFields R files bytes [] []
  | skip {k : Str} {t : Pvl.Tree Val} {rest : MDict Val} {fs : List Ascii.Field} : k ∉ structural → ¬ ToFormatFile k →
      SheetFields R files bytes rest fs → SheetFields R files bytes ((k, t) :: rest) fs
  | file {k : Str} {v : Val} {c rest : MDict Val} {fs : List Ascii.Field} : ToFormatFile k → Contents files v c →
      SheetFields R files bytes (c ++ rest) fs → SheetFields R files bytes ((k, .leaf v) :: rest) fs
  | field {k : Str} {b d rest : MDict Val} {f : Ascii.Field} {fs : List Ascii.Field} : k ∈ [c!"COLUMN", c!"FIELD", c!"ELEMENT"] →
      ColumnText files b d → FieldSays R bytes d f → SheetFields R files bytes rest fs → SheetFields R files bytes ((k, .node b) :: rest) (f :: fs)

end Verif.Product.Spec
