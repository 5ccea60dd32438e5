/-
Model of what `Data.load` does with a TABLE or a SPREADSHEET of a PDS3 product that is text, from the parsed label on: as Model/Product,
with the reader of text tables (Model/AsciiTable). The decoded file is given (one character per byte).
-/
import Verif.Model.Product
import Verif.Model.AsciiTable

namespace Verif.Product
open Verif.Py Verif.Pvl Verif.Literal Verif.Format

/-- datawrap.py 106-119 `ReadTable` for a TABLE the columns of which have START_BYTE; the result is `.ok none` if the table is taken to be
binary. (Bit columns of text tables change DATA_TYPEs, queries.py 753, but are not cut up.) -/
def textTable (P : Ascii.Pandas) (ids : BitTable.Ids) (files : Files) (fuel : Nat) (content : Str) (s : State) (name : Str) :
    Option (Except PyErr (Option (List (Str × Ascii.Cells)))) := do
  let l ← locate s name content.length
  let tb ← tableBlock P.R files fuel name l.1
  let delim ← optField toStr l.1 c!"FIELD_DELIMITER"
  pure (match l.2.2.2.2 with
    | .error e => .error e
    | .ok start => match Locate.tablePosition l.2.2.1 (recordType s) name (some l.2.1) l.2.2.2.1 start with
      | .error e => .error e
      | .ok p => match BitTable.addBitsAll ids tb.defs with
        | .error e => .error e
        | .ok defs => Ascii.readAscii P { tb with defs := defs } delim content p)

/-- queries.py 737-763: a FIELD without START_BYTE, and whether it says how many BYTES it has. FIELDs without DATA_TYPE or with bit
columns are not modelled. -/
def fieldDef (R : Float.Rounding Float.double) (files : Files) (text : MDict Val) : Option (Ascii.Field × Bool) := do
  let b ← columnText files text
  if has b c!"BIT_ELEMENT" || has b c!"BIT_COLUMN" || has b c!"START_BYTE" then none
  else do
    let name ← reqField toStr b c!"NAME"
    let bytes ← optField toNat b c!"BYTES"
    let items ← optField toNat b c!"ITEMS"
    let _ ← reqField toStr b c!"DATA_TYPE"
    let scale ← optField (toNum R) b c!"SCALING_FACTOR"
    let offset ← optField (toNum R) b c!"OFFSET"
    pure ({ name := name, items := items, scale := scale, offset := offset }, bytes.isSome)

/-- queries.py 724-790: an entry of the definition of a SPREADSHEET (`some []`: it has nothing to do with the structure). CONTAINERs are not
modelled. -/
def entryFields (R : Float.Rounding Float.double) (files : Files) : Str × Pvl.Tree Val → Option (List (Ascii.Field × Bool))
  | (k, .leaf _) =>
    if [c!"ARRAY", c!"COLLECTION", c!"COLUMN", c!"CONTAINER", c!"ELEMENT", c!"FIELD", c!"PRIMITIVE_ARRAY", c!"STRUCTURE"].contains k then none
    else some []
  | (k, .node kids) =>
    if [c!"COLUMN", c!"FIELD", c!"ELEMENT"].contains k then (fieldDef R files kids).map (fun d => [d])
    else if [c!"ARRAY", c!"COLLECTION", c!"CONTAINER", c!"PRIMITIVE_ARRAY", c!"STRUCTURE"].contains k then none
    else some []

/-- queries.py 695-790 `read_format_block` for a SPREADSHEET: its FIELDs, and whether they have BYTES (590-594: some with and some without
is not modelled) -/
def sheetFields (R : Float.Rounding Float.double) (files : Files) (fuel : Nat) (b : MDict Val) : Option (List Ascii.Field × Bool) := do
  let all ← injectAll files fuel b
  let fs ← (all.mapM (entryFields R files)).map List.flatten
  if fs.all (fun f => f.2) then pure (fs.map Prod.fst, true)
  else if fs.all (fun f => !f.2) then pure (fs.map Prod.fst, false)
  else none

/-- datawrap.py 106-119 `ReadTable` for a SPREADSHEET the FIELDs of which have no START_BYTE -/
def spreadsheet (P : Ascii.Pandas) (files : Files) (fuel : Nat) (content : Str) (s : State) (name : Str) :
    Option (Except PyErr (List (Str × Ascii.Cells))) := do
  let l ← locate s name content.length
  let fs ← if contains name c!"SPREADSHEET" && !contains name c!"HISTOGRAM" then sheetFields P.R files fuel l.1 else none
  let delim ← optField toStr l.1 c!"FIELD_DELIMITER"
  pure (match l.2.2.2.2 with
    | .error e => .error e
    | .ok start => match Locate.tablePosition l.2.2.1 (recordType s) name (some l.2.1) l.2.2.2.1 start with
      | .error e => .error e
      | .ok p => Ascii.readSpreadsheet P fs.2 fs.1 delim content p)

end Verif.Product
