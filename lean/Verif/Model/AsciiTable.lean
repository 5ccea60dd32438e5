/-
Model of reading text tables: `pdr/loaders/table.py` 30, 67-110, 137-158, 184-273, `pdr/loaders/_helpers.py` 103-120,
composed with the models of format definitions (Model/Format, Model/Table) and of finding the text (Model/Locate).
pandas' readers are modelled from pandas 2: the tokenizer of `read_csv` (C engine) with its default options, the
splitting of lines by `read_fwf`; what they make of the cells of a column is a parameter.
-/
import Verif.Model.Table
import Verif.Model.Locate
import Verif.Model.Literal

namespace Verif.Ascii
open Verif.Py Verif.Format Verif.Table Verif.Scaling

/-- table.py 30 `PAD_CHARACTERS` -/
def padding : List Char := [' ', '\t', '"', ',']

/-- `_helpers.py` 103-120 `check_explicit_delimiter` on the value of FIELD_DELIMITER -/
def delimiter : Option Str → Except PyErr Char
  | none => .ok ','
  | some d =>
    if d = c!"COMMA" then .ok ','
    else if d = c!"VERTICAL_BAR" then .ok '|'
    else if d = c!"SEMICOLON" then .ok ';'
    else if d = c!"TAB" then .ok '\t'
    else .error .keyError

/-! ### `read_csv` -/

/-- states of pandas' C tokenizer (`tokenizer.c`). `blankLine` is WHITESPACE_LINE. -/
inductive State
  | startRecord | blankLine | startField | inField | quoted | quoteInQuoted | eatCrnl | eatCrnlNop
  deriving DecidableEq

/-- the tokenizer: characters of the field so far, ended fields of the line, ended lines -/
structure Tok where
  state : State := .startRecord
  field : Str := []
  row : List Str := []
  done : List (List Str) := []

/-- END_FIELD -/
def endField (k : Tok) : Tok := { k with row := k.row ++ [k.field], field := [] }
/-- END_LINE (checking the number of fields: see `rectangle`) -/
def endLine (k : Tok) : Tok := { k with done := k.done ++ [k.row], row := [], state := .startRecord }
/-- PUSH_CHAR -/
def push (c : Char) (k : Tok) : Tok := { k with field := k.field ++ [c] }

/-- the end of a line or of a field, in the states START_FIELD, IN_FIELD and QUOTE_IN_QUOTED_FIELD -/
def orEnd (sep c : Char) (k other : Tok) : Tok :=
  if c = '\n' then endLine (endField k)
  else if c = '\r' then { endField k with state := .eatCrnl }
  else if c = sep then { endField k with state := .startField }
  else other

/-- START_FIELD -/
def startField (sep c : Char) (k : Tok) : Tok :=
  if c = '"' then { k with state := .quoted } else orEnd sep c k { push c k with state := .inField }

/-- a blank that is not the separator -/
def blank (sep c : Char) : Bool := (c = ' ' ∨ c = '\t') ∧ c ≠ sep

/-- START_RECORD, with skip_blank_lines -/
def startRecord (sep c : Char) (k : Tok) : Tok :=
  if c = '\n' then { k with state := .startRecord }
  else if c = '\r' then { k with state := .eatCrnlNop }
  else if blank sep c then { push c k with state := .blankLine }
  else startField sep c k

/-- a character is read. Simplifications: in WHITESPACE_LINE, the blanks are kept and, when something else comes, become
the start of the field (the code goes back to the last line feed and reads them again, which is the same unless lines
end with a carriage return alone). -/
def step (sep : Char) (k : Tok) (c : Char) : Tok :=
  match k.state with
  | .startRecord => startRecord sep c k
  | .blankLine =>
    if c = '\n' then { k with field := [], state := .startRecord }
    else if c = '\r' then { k with field := [], state := .eatCrnlNop }
    else if blank sep c then push c k
    else orEnd sep c k { push c k with state := .inField }
  | .startField => startField sep c k
  | .inField => orEnd sep c k (push c k)
  | .quoted => if c = '"' then { k with state := .quoteInQuoted } else push c k
  | .quoteInQuoted =>
    if c = '"' then { push c k with state := .quoted } else orEnd sep c k { push c k with state := .inField }
  | .eatCrnl =>
    if c = '\n' then endLine k
    else if c = sep then { endField (endLine k) with state := .startField }
    else startRecord sep c (endLine k)
  | .eatCrnlNop => if c = '\n' then { k with state := .startRecord } else startRecord sep c k

/-- what stops the reader of delimited tables: pandas' ParserError and EmptyDataError, and the IndexError and
AttributeError of table.py 151-157 -/
inductive Trouble | parser | empty | index | attribute
  deriving DecidableEq

/-- the end of the text (`tokenizer_handle_eof`) -/
def finish (k : Tok) : Except Trouble (List (List Str)) :=
  match k.state with
  | .startRecord | .blankLine | .eatCrnlNop => .ok k.done
  | .quoted => .error .parser
  | .eatCrnl => .ok (endLine k).done
  | .startField | .inField | .quoteInQuoted => .ok (endLine (endField k)).done

/-- the fields of the lines of a text -/
def tokenize (sep : Char) (text : Str) : Except Trouble (List (List Str)) := finish (text.foldl (step sep) {})

/-- pandas: the first line says how many columns there are. A longer line is an error; a shorter one is filled up. -/
def rectangle : List (List Str) → Except Trouble (Nat × List (List Str))
  | [] => .error .empty
  | first :: rest =>
    if rest.any (fun r => first.length < r.length) then .error .parser
    else .ok (first.length, (first :: rest).map (fun r => r ++ List.replicate (first.length - r.length) []))

/-! ### columns -/

/-- a column: numbers or truth values; truth values some of which are missing (NaN); or texts, some of which may be
missing -/
inductive Cells
  | values (c : Column)
  | mixed (vs : List (Option Bool))
  | texts (vs : List (Option Str))

/-- What pandas makes of the cells of a column. `text`: at least one is not a number (nor are all truth values);
`mixed`: truth values, some of them missing. -/
inductive Inferred
  | values (c : Column)
  | mixed (vs : List (Option Bool))
  | text

/-- What is left to pandas: the types of columns, in `read_csv` and in `read_fwf`; which texts stand for missing values;
`read_fwf` without column positions. -/
structure Pandas where
  csv : List Str → Inferred
  fwf : List Str → Inferred
  missing : Str → Bool
  guess : Str → Except PyErr (List Cells)
  R : Float.Rounding Float.double
  R' : Float.Rounding Float.single

/-- the texts of a column that has some -/
def textCells (P : Pandas) (cells : List Str) : List (Option Str) :=
  cells.map (fun c => if P.missing c then none else some c)

/-- the columns of `n` cells in each row -/
def columnsOf (n : Nat) (rows : List (List Str)) : List (List Str) :=
  (List.range n).map (fun i => rows.map (fun r => r.getD i []))

/-- table.py 154-157: texts are stripped. (`.str` of a column of truth values is an AttributeError.) -/
def csvColumn (P : Pandas) (cells : List Str) : Except Trouble Cells :=
  match P.csv cells with
  | .values c => .ok (.values c)
  | .mixed _ => .error .attribute
  | .text => .ok (.texts ((textCells P cells).map (Option.map (Literal.stripChars padding))))

/-- table.py 137-158 `_read_as_delimited` -/
def readDelimited (P : Pandas) (sep : Char) (names : List Str) (text : Str) : Except Trouble (List Cells) :=
  match tokenize sep text with
  | .error e => .error e
  | .ok lines => match rectangle lines with
    | .error e => .error e
    | .ok (n, rows) =>
      if n + (names.filter (fun m => contains m c!"PLACEHOLDER")).length ≠ names.length then .error .index
      else (columnsOf n rows).mapM (csvColumn P)

/-! ### `read_fwf` -/

/-- pandas' `FixedWidthReader`: the cells of a line -/
def cellsOf (specs : List (Int × Nat)) (line : Str) : List Str :=
  specs.map (fun s => Literal.stripChars ('\r' :: '\n' :: padding) (Bits.pySlice line s.1 (s.1 + s.2)))

/-- … and of all lines; those without anything but white space are left out (`_remove_empty_lines`) -/
def fixedRows (specs : List (Int × Nat)) (text : Str) : List (List Str) :=
  ((Locate.fileLines text).map (cellsOf specs)).filter (fun r => r.any (fun c => strip c ≠ []))

/-- a column of `read_fwf` -/
def fwfColumn (P : Pandas) (cells : List Str) : Cells :=
  match P.fwf cells with
  | .values c => .values c
  | .mixed vs => .mixed vs
  | .text => .texts (textCells P cells)

/-- table.py 184-218 `_read_fwf_with_colspecs`; `none` is EmptyDataError -/
def readFixed (P : Pandas) (specs : List (Int × Nat)) (text : Str) : Option (List Cells) :=
  match fixedRows specs text with
  | [] => none
  | rows => some ((columnsOf specs.length rows).map (fwfColumn P))

/-! ### the table -/

/-- where the columns are: no BYTES in the definition; BYTES without START_BYTE; first byte and width (table.py 202-208:
that of an item, if the column has items) -/
inductive Places
  | unknown
  | unplaced
  | known (specs : List (Int × Nat))

/-- a format definition: names, places, factors and offsets -/
structure Fmt where
  names : List Str
  places : Places
  scale : List (Option Num)
  offset : List (Option Num)

/-- table.py 221-245 `_read_table_from_stringio`. EmptyDataError is a ValueError that is not caught in the first try;
`compute_offsets` on a definition without START_BYTE is a KeyError (pd_utils.py 87). -/
def readText (P : Pandas) (delim : Option Str) (fmt : Fmt) (text : Str) : Except PyErr (List Cells) :=
  match delimiter delim with
  | .error e => .error e
  | .ok sep => match readDelimited P sep fmt.names text with
    | .ok t => .ok t
    | .error .empty => .error .valueError
    | .error _ => match fmt.places with
      | .unknown => P.guess text
      | .unplaced => .error .keyError
      | .known specs => match readFixed P specs text with
        | some t => .ok t
        | none => P.guess text

/-- table.py 89-94: names for the columns. pandas wants as many as there are columns. -/
def nameColumns (names : List Str) (cols : List Cells) : Except PyErr (List Str) :=
  if cols.length ≠ names.length then
    let short := names.filter (fun m => !startsWith m c!"PLACEHOLDER")
    if short.length = cols.length then .ok short else .error .valueError
  else .ok names

/-- table.py 99-109 for one column. Anything but numbers with a factor or an offset is a TypeError here, as in
`Table.arith`. -/
def scaleCells (P : Pandas) (c : Cells) (scale offset : Option Num) : Except PyErr Cells :=
  match c with
  | .values c => (scaleCol P.R P.R' c scale offset).map .values
  | c => if (scale.any (fun n => n.val ≠ 0)) || (offset.any (fun n => n.val ≠ 0)) then .error .typeError else .ok c

/-- table.py 73-110 `read_table` for text tables, from their text: names and columns. The factors of a column are those of
the first field with its name. -/
def readTable (P : Pandas) (delim : Option Str) (fmt : Fmt) (text : Str) : Except PyErr (List (Str × Cells)) :=
  match readText P delim fmt text with
  | .error e => .error e
  | .ok cols => match nameColumns fmt.names cols with
    | .error e => .error e
    | .ok names =>
      -- `_drop_placeholders` (67-70)
      let kept := (names.zip cols).filter (fun q => !contains q.1 c!"PLACEHOLDER")
      let factors := fmt.names.zip ((unify P.R fmt.scale).zip (unify P.R fmt.offset))
      kept.mapM (fun q =>
        let f := (factors.lookup q.1).getD (none, none)
        (scaleCells P q.2 f.1 f.2).map (fun c => (q.1, c)))

/-- queries.py 569-606 `parse_table_structure` for text tables with BYTES and START_BYTE in every column. `none`: the table
is not taken to be text. -/
def formatOf (b : Table.Block) : Except PyErr (Option Fmt) :=
  match parseStructure b with
  | .error e => .error e
  | .ok (_, some _) => .ok none
  | .ok (rows, none) => .ok (some {
      names := rows.map (·.fld.name)
      places := .known (rows.map (fun r => (r.sb, width r.fld)))
      scale := rows.map (·.fld.attrs.scale)
      offset := rows.map (·.fld.attrs.offset) })

/-- a FIELD of a SPREADSHEET, which has no START_BYTE -/
structure Field where
  name : Str
  items : Option Nat := none
  scale : Option Num := none
  offset : Option Num := none

/-- The same for a SPREADSHEET (so it is taken to be text). `bytes`: do its FIELDs say how many BYTES they have at most?
(If some do and some do not, see queries.py 590-594, not modelled.) Names are numbered by `reindex_df_values`; several
RESERVED fields need START_BYTE (pd_utils.py 50). -/
def formatOfFields (bytes : Bool) (fields : List Field) : Except PyErr Fmt :=
  let all := fields.foldl (fun acc f => appendObj' f acc) []
  if 1 < (all.map (·.name)).count c!"RESERVED" then .error .keyError
  else .ok {
    names := reindexNames (all.map (·.name)) []
    places := if bytes then .unplaced else .unknown
    scale := all.map (·.scale)
    offset := all.map (·.offset) }
where
  /-- queries.py 785-790 -/
  appendObj' (f : Field) (acc : List Field) : List Field :=
    match f.items with
    | some n => appendRepeated [f] acc n
    | none => acc ++ [f]

/-- table.py 248-273 `_interpret_as_ascii`: the text (see Model/Locate) -/
def textOf (content : Str) (p : Locate.TablePos) : Except PyErr Str :=
  if p.asRows then Locate.asciiTextByRows content p.start p.length
  else Locate.asciiTextByBytes content p.start p.length

/-- table.py 73-110 `read_table` for a TABLE that may be text; `none`: it is taken to be binary -/
def readAscii (P : Pandas) (b : Table.Block) (delim : Option Str) (content : Str) (p : Locate.TablePos) :
    Except PyErr (Option (List (Str × Cells))) :=
  match formatOf b with
  | .error e => .error e
  | .ok none => .ok none
  | .ok (some fmt) => match textOf content p with
    | .error e => .error e
    | .ok text => (readTable P delim fmt text).map some

/-- … and for a SPREADSHEET -/
def readSpreadsheet (P : Pandas) (bytes : Bool) (fields : List Field) (delim : Option Str) (content : Str)
    (p : Locate.TablePos) : Except PyErr (List (Str × Cells)) :=
  match formatOfFields bytes fields with
  | .error e => .error e
  | .ok fmt => match textOf content p with
    | .error e => .error e
    | .ok text => readTable P delim fmt text

end Verif.Ascii
