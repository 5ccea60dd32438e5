/-
Model of how pdr finds an object's bytes: `data_start_byte`, `table_position` and their helpers
(`pdr/loaders/queries.py` 395-522, `pdr/loaders/_helpers.py` 31-101), the FITS start byte
(queries.py 345-384, handlers.py 24-39), and the readers of text headers and of the text of ASCII
tables (`pdr/loaders/text.py` 60-128, `pdr/loaders/table.py` 248-271).
-/
import Verif.Model.LineEnd

namespace Verif.Locate
open Verif.Py

/-- A label value as this code sees it. Simplification: no real numbers. -/
inductive Val where
  | none
  | str (s : Str)
  | int (n : Int)
  deriving DecidableEq

/-- Python's `s * n` for a string -/
def repeatStr (s : Str) (n : Int) : Str := (List.replicate n.toNat s).flatten

/-- Python's `a * b` -/
def mulV : Val → Val → Except PyErr Val
  | .int a, .int b => .ok (.int (a * b))
  | .str s, .int n => .ok (.str (repeatStr s n))
  | .int n, .str s => .ok (.str (repeatStr s n))
  | _, _ => .error .typeError

/-- Python's `a + b` -/
def addV : Val → Val → Except PyErr Val
  | .int a, .int b => .ok (.int (a + b))
  | .str a, .str b => .ok (.str (a ++ b))
  | _, _ => .error .typeError

/-- The keys of an object's definition that this code reads (absent keys are `Option.none`). -/
structure Blk where
  recordBytes : Option Val := Option.none
  bytes : Option Val := Option.none
  records : Option Val := Option.none
  rows : Option Val := Option.none
  rowBytes : Option Val := Option.none
  rowSuffixBytes : Option Val := Option.none

/-- One place: a value, or a quantity with units (`{"value": ..., "units": ...}`). -/
inductive Item where
  | val (v : Val)
  | quantity (value : Int) (units : Str)

/-- What a pointer refers to: one place, or a list (typically file name and place). -/
inductive Target where
  | item (i : Item)
  | seq (xs : List Item)

/-- _helpers.py 31-46 `quantity_start_byte` -/
def quantityStart (value : Int) (units : Str) (recordBytes : Val) : Except PyErr Val :=
  if units = c!"BYTES" then .ok (.int (value - 1))
  else if recordBytes ≠ .none then mulV recordBytes (.int (max (value - 1) 0))
  else .ok .none

/-- _helpers.py 49-64 `count_from_bottom_of_file`, then `max(0, ...)` (queries.py 416) -/
def bottomStart (fileSize : Nat) (rows rowBytes : Val) : Except PyErr Val :=
  match mulV rows rowBytes with
  | .ok (.int n) => .ok (.int (max 0 ((fileSize : Int) - n)))
  | .ok _ => .error .typeError
  | .error e => .error e

/-- queries.py 406-420: the offset for one place (`.none` if nothing applies) -/
def itemStart (recordBytes : Val) (block : Option Blk) (fileSize : Nat) : Item → Except PyErr Val
  | .val (.int n) =>
    if n = 1 then .ok (.int 0)
    else if recordBytes ≠ .none ∧ recordBytes ≠ .str [] then mulV recordBytes (.int (max (n - 1) 0))
    else match block with
      | Option.none => .error .attributeError
      | some b => match b.rows with
        | Option.none => .ok .none
        | some rows => match b.rowBytes with
          | Option.none => .error .keyError
          | some rb => bottomStart fileSize rows rb
  | .quantity v u => quantityStart v u recordBytes
  | .val (.str _) => .ok (.int 0)
  | .val .none => .ok .none

/-- queries.py 401-404: the record size, from the block if it has one -/
def recordSize (identRecordBytes : Val) (block : Option Blk) : Val :=
  match block with
  | some b => b.recordBytes.getD identRecordBytes
  | Option.none => identRecordBytes

/-- queries.py 395-425 `data_start_byte` -/
def dataStartByte (identRecordBytes : Val) (block : Option Blk) (target : Target) (fileSize : Nat) :
    Except PyErr Int :=
  let place : Except PyErr Item := match target with
    | .item i => .ok i
    | .seq xs => match xs.getLast? with
      | some i => .ok i
      | Option.none => .error .indexError
  match place with
  | .error e => .error e
  | .ok i => match itemStart (recordSize identRecordBytes block) block fileSize i with
    | .error e => .error e
    | .ok .none => .error .valueError
    | .ok (.str _) => .error .typeError
    | .ok (.int n) => if n < 0 then .error .valueError else .ok n

/-- _helpers.py 67-101 `_check_delimiter_stream`. `recordBytes` and `recordType` are the label-wide
values (`""` if the label has none). -/
def delimiterStream (recordBytes : Val) (recordType name : Str) (target : Target) (block : Option Blk) :
    Except PyErr Bool :=
  let inBytes : Except PyErr Bool := match target with
    | .item (.quantity _ u) => .ok (u == c!"BYTES")
    | .item _ => .ok false
    | .seq xs => match xs.getLast? with
      | Option.none => .error .indexError
      | some (.quantity _ u) => .ok (u == c!"BYTES")
      | some _ => .ok false
  match inBytes with
  | .error e => .error e
  | .ok true => .ok false
  | .ok false => match block with
    | Option.none => .error .typeError
    | some b =>
      if b.bytes ≠ Option.none then .ok false
      else if ¬ (recordBytes = .none ∨ recordBytes = .str []) then .ok false
      else if recordType ≠ c!"STREAM" then .ok false
      else .ok (contains name c!"ASCII" || contains name c!"SPREADSHEET" || contains name c!"HEADER")

/-- queries.py 441-463 `_table_row_position`: `target[1] - 1`. Indexing a string gives a character
(or IndexError), indexing a number is a TypeError, and a quantity has no key 1 (KeyError). -/
def rowStart : Target → Except PyErr Int
  | .item (.quantity _ _) => .error .keyError
  | .item (.val (.int _)) => .error .typeError
  | .item (.val .none) => .error .typeError
  | .item (.val (.str s)) => if 2 ≤ s.length then .ok 0 else .error .indexError
  | .seq xs => match (xs[1]? : Option Item) with
    | Option.none => .error .indexError
    | some (.quantity v _) => .ok (v - 1)
    | some (.val (.int n)) => .ok (n - 1)
    | some (.val _) => .ok 0

/-- queries.py 428-438 `_extract_table_records` (512-514: none for a missing block) -/
def tableRecords (block : Option Blk) : Val :=
  match block with
  | Option.none => .none
  | some b => match b.records with
    | some v => v
    | Option.none => b.rows.getD .none

/-- queries.py 473-484: the record length -/
def recordLength (b : Blk) (identRecordBytes : Val) : Except PyErr Val :=
  match b.recordBytes with
  | some v => .ok v
  | Option.none => match b.rowBytes with
    | some rb => addV rb (b.rowSuffixBytes.getD (.int 0))
    | Option.none => .ok identRecordBytes

/-- queries.py 466-489 `_table_length` -/
def tableLength (block : Option Blk) (identRecordBytes : Val) (nRecords : Val) : Except PyErr Val :=
  match block with
  | Option.none => .ok .none
  | some b => match b.bytes with
    | some v => .ok v
    | Option.none =>
      if nRecords = .none then .ok .none
      else match recordLength b identRecordBytes with
        | .error e => .error e
        | .ok .none => .ok .none
        | .ok r => mulV r nRecords

/-- the `table_props` dictionary -/
structure TablePos where
  start : Int
  length : Val
  asRows : Bool

/-- queries.py 492-522 `table_position` -/
def tablePosition (identRecordBytes : Val) (recordType name : Str) (block : Option Blk) (target : Target)
    (startByte : Int) : Except PyErr TablePos :=
  if startByte < 0 then .error .valueError
  else match delimiterStream identRecordBytes recordType name target block with
    | .error e => .error e
    | .ok asRows =>
      let place : Except PyErr (Int × Val) :=
        if asRows then
          match rowStart target with
          | .error e => .error e
          | .ok s => .ok (s, tableRecords block)
        else match tableLength block identRecordBytes (tableRecords block) with
          | .error e => .error e
          | .ok l => .ok (startByte, l)
      match place with
      | .error e => .error e
      | .ok (s, l) =>
        if (l = .none ∨ l = .str c!"UNK") ∧ contains name c!"HEADER" then .error .notImplemented
        else .ok ⟨s, l, asRows⟩

/-! ### reading the text -/

/-- the lines of a text that has only `\n` line breaks, each with its `\n` (file iteration) -/
def fileLines : Str → List Str
  | [] => []
  | c :: cs =>
    if c = '\n' then ['\n'] :: fileLines cs
    else match fileLines cs with
      | [] => [[c]]
      | l :: ls => (c :: l) :: ls

/-- `lines[start:end]` as the loop of text.py 114-118 selects it (negative starts select from 0) -/
def pickLines {α : Type} (lines : List α) (start stop : Int) : List α :=
  (lines.take stop.toNat).drop start.toNat

/-- `line.replace("\n", "\r\n")` (text.py 118) -/
def toCrlf (s : Str) : Str := s.flatMap (fun c => if c = '\n' then ['\r', '\n'] else [c])

/-- text.py 60-128 `skeptically_load_header` with `fmt="text"`, including the final canonicalisation.
`content` is the decoded file: one character per byte when read by position (ISO-8859-1), and the
UTF-8 decoding when read by lines (universal newlines turn every line break into `\n` first).
`none` as a result is the warning-and-nothing outcome of a ValueError. -/
def readHeader (content : Str) (p : TablePos) : Except PyErr (Option Str) :=
  if p.asRows then
    match p.length with
    | .int n =>
      .ok (some (LineEnd.cle ((pickLines (fileLines (LineEnd.cle content)) p.start (p.start + n)).map toCrlf).flatten))
    | _ => .error .typeError
  else match p.length with
    | .int n =>
      if p.start < 0 then .ok Option.none
      else if min n 80000 < -1 then .ok Option.none
      else if min n 80000 = -1 then .ok (some (LineEnd.cle (content.drop p.start.toNat)))
      else .ok (some (LineEnd.cle ((content.drop p.start.toNat).take (min n 80000).toNat)))
    | _ => .error .typeError

/-- table.py 255-263: the text of an ASCII table read by position. `read(None)` and `read(-1)` read to
the end of the file. -/
def asciiTextByBytes (content : Str) (start : Int) (length : Val) : Except PyErr Str :=
  if start < 0 then .error .valueError
  else match length with
    | .none => .ok (content.drop start.toNat)
    | .int n =>
      if n < -1 then .error .valueError
      else if n = -1 then .ok (content.drop start.toNat)
      else .ok ((content.drop start.toNat).take n.toNat)
    | .str _ => .error .typeError

/-- table.py 265-271: the text of an ASCII table read by rows. The file is binary, so lines end at `\n`
only; asking for more lines than there are is an error (StopIteration inside a comprehension, shown as
RuntimeError in newer versions; any error here). -/
def asciiTextByRows (content : Str) (start : Int) (length : Val) : Except PyErr Str :=
  let lines := fileLines content
  if (lines.length : Int) < start then .error .valueError
  else
    let rest := lines.drop start.toNat
    match length with
    | .none => .ok (join c!"\r\n" rest)
    | .str [] => .ok (join c!"\r\n" rest)
    | .str _ => .error .typeError
    | .int n => if (rest.length : Int) < n then .error .valueError else .ok (join c!"\r\n" (rest.take n.toNat))

/-! ### FITS -/

/-- handlers.py 24-39 `hdu_byte_index`: header and data offsets of each HDU, as a dictionary filled in
HDU order (a later entry for the same offset wins). -/
def hduIndex (hdus : List (Int × Int)) : List (Int × Bool) :=
  hdus.flatMap (fun (h, d) => [(h, true), (d, false)])

/-- `hix.get(t)`: is it a header? -/
def hduPart (hdus : List (Int × Int)) (t : Int) : Option Bool :=
  ((hduIndex hdus).reverse.find? (fun e => e.1 = t)).map (·.2)

/-- queries.py 345-363 `_agnostic_fits_index` -/
def agnosticFits (isHeader : Bool) (target : Int) (hdus : List (Int × Int)) : Except PyErr Int :=
  let ok (t : Int) : Bool := hduPart hdus t == some isHeader
  match [target - 1, target, (target - 1) * 2880, target * 2880].find? ok with
  | some t => .ok t
  | Option.none => .error .valueError

end Verif.Locate
