/-
Model of a PDS4 product with arrays, tables and headers, from the XML of its label to the values: `pdr/pds4_tools/reader/core.py` 200-309,
`array_objects.py` 352-400 and 445-470, `read_arrays.py` 180-220, `table_objects.py` 495-557, 660-694, 1030-1088, 1298-1412, 1610-1880,
`read_tables.py` 817-957, `header_objects.py` 226-234, `read_headers.py` 28-68, `general_objects.py` 582-654, `pdr/pdr.py` 335-348 and 714-764, `pdr/formats/checkers.py` 1340-1403. It puts
together `Model/Xml.lean`, `Model/Objects.lean`, `Model/Pds4Array.lean`, `Model/Pds4Table.lean` and `Model/Pds4Delim.lean`.
-/
import Verif.Model.Xml
import Verif.Model.Objects
import Verif.Model.Pds4Array
import Verif.Model.Pds4Table
import Verif.Model.Pds4Delim

namespace Verif.Pds4Read
open Verif.Py Verif.Pvl Verif.Image Verif.ImageFile Verif.Pds4Array

/-- a value of a description -/
abbrev Value := Packed (Option (Xml.Scalar ℚ))

/-- the description of a structure (`meta_data`) or a part of it -/
abbrev Dict := List (Str × Value)

/-- What the result depends on besides the label and the files: `float(text)`; the version of NumPy (see
`Pds4Array.applyBitmask`); `float` and UTF-8 in tables; what is in memory that was not set (see `Pds4Delim.Memory`). -/
structure Machine where
  floats : Xml.Floats ℚ
  oldNumPy : Bool
  env : Pds4Table.Env
  memory : Pds4Delim.Memory

def tagOf : Xml.Element → Str
  | .mk tag _ _ _ => tag

def kidsOf : Xml.Element → List Xml.Element
  | .mk _ _ _ kids => kids

def textOf : Xml.Element → Option Str
  | .mk _ _ text _ => text

mutual
/-- core.py 260 with label_objects.py 460-466: `findtext('.//' + name)`: the text of the first element of that name below, in the
order of the document; the outer `none`: there is no such element -/
def firstText (name : Str) : Xml.Element → Option (Option Str)
  | .mk _ _ _ kids => firstTextL name kids
/-- the children and what is below them -/
def firstTextL (name : Str) : List Xml.Element → Option (Option Str)
  | [] => none
  | e :: es => if tagOf e = name then some (textOf e) else (firstText name e).orElse (fun _ => firstTextL name es)
end

/-- general_objects.py 646-652: a local identifier or a name, which has to be a text. (`replace` in pdr.py 345 is an AttributeError
for lists and mappings. Simplification: it is raised here, before other structures are looked at.) -/
def identifier (d : Dict) (key : Str) : Except PyErr (Option Str) :=
  match d.lookup key with
  | none => .ok none
  | some (.leaf none) => .ok none
  | some (.leaf (some (.text s))) => .ok (some s)
  | some _ => .error .attributeError

/-- array_objects.py 456-462: the Axis_Arrays as a list -/
def axisArrays (d : Dict) : List Value :=
  match d.lookup c!"Axis_Array" with
  | none => []
  | some (.list vs) => vs
  | some v => [v]

/-- array_objects.py 464-465: `x['sequence_number']`. Simplification: sequence numbers can be compared. -/
def checkSorted : List Value → Except PyErr Unit
  | [] => .ok ()
  | .map a :: vs => match a.lookup c!"sequence_number" with
    | none => .error .keyError
    | some _ => checkSorted vs
  | _ :: _ => .error .typeError

/-- general_objects.py 619-628: all keys are there -/
def hasKeys (keys : List Str) (d : Dict) : Bool := keys.all (fun k => (d.lookup k).isSome)

/-- array_objects.py 380-393 in `from_label`. Simplifications: Element_Arrays without children are TypeErrors (a text is searched
for `data_type`); display settings and spectral characteristics, which are for display only, are left out. -/
def checkArray (d : Dict) : Except PyErr Unit :=
  if !hasKeys [c!"offset", c!"axes", c!"Axis_Array", c!"Element_Array"] d then .error .invalidLabel
  else match checkSorted (axisArrays d) with
    | .error e => .error e
    | .ok _ =>
      if !(axisArrays d).all (fun v => match v with
        | .map a => hasKeys [c!"axis_name", c!"elements", c!"sequence_number"] a
        | _ => false) then .error .invalidLabel
      else match d.lookup c!"Element_Array" with
        | some (.map e) => if hasKeys [c!"data_type"] e then .ok () else .error .invalidLabel
        | some (.list _) => .error .invalidLabel
        | _ => .error .typeError

/-- `s.split('_')[-1]` -/
def lastPart (s : Str) : Str := (s.reverse.takeWhile (· ≠ '_')).reverse

/-- table_objects.py 522, 673: the name of the first child with `Record_` in its name -/
def recordTag (x : Xml.Element) : Option Str := ((kidsOf x).map tagOf).find? (fun t => contains t c!"Record_")

/-- table_objects.py 527: is it the record of a delimited table? -/
def delimited (record : Str) : Bool := contains (lower (lastPart record)) c!"delimited"

/-- table_objects.py 518-547 in `from_label`. Simplification: records without children are TypeErrors. Spectral characteristics,
which are for display only, are left out. -/
def checkTable (x : Xml.Element) (d : Dict) : Except PyErr Unit :=
  match recordTag x with
  | none => .error .indexError
  | some r =>
    if !hasKeys (if delimited r then [c!"offset", c!"records", c!"record_delimiter", c!"field_delimiter"] else [c!"offset", c!"records"]) d then
      .error .invalidLabel
    else match d.lookup r with
      | some (.map e) =>
        if hasKeys (if delimited r then [c!"fields", c!"groups"] else [c!"fields", c!"groups", c!"record_length"]) e then .ok ()
        else .error .invalidLabel
      | some (.list _) => .error .invalidLabel
      | _ => .error .typeError

/-- header_objects.py 226-234 in `from_label` -/
def checkHeader (d : Dict) : Except PyErr Unit :=
  if hasKeys [c!"object_length", c!"offset", c!"parsing_standard_id"] d then .ok () else .error .invalidLabel

/-- a structure that can be created: its element, its identifiers, and its XML with its description -/
structure Made where
  element : Objects.Element
  dict : Xml.Element × Dict

/-- core.py 284-292: can the structure be created from its description? -/
def check (k : Objects.Kind) (x : Xml.Element) (d : Dict) : Except PyErr Unit :=
  match k with
  | .array => checkArray d
  | .table => checkTable x d
  | .header => checkHeader d

/-- core.py 266-296: create a structure from its element -/
def make (M : Machine) (k : Objects.Kind) (x : Xml.Element) : Except PyErr Made :=
  match Xml.loadKeys M.floats x with
  | .error e => .error e
  | .ok d =>
    match check k x d with
    | .error e => .error e
    | .ok _ => match identifier d c!"local_identifier" with
      | .error e => .error e
      | .ok i => match identifier d c!"name" with
        | .error e => .error e
        | .ok n => .ok ⟨⟨tagOf x, i, n⟩, (x, d)⟩

/-- core.py 252-255: the file areas, one kind after the other -/
def areas (root : Xml.Element) : List Xml.Element :=
  Objects.dataAreas.flatMap (fun t => (kidsOf root).filter (fun a => tagOf a = t))

/-- core.py 263-307: the structures of a file area -/
def makeKids (M : Machine) : List Xml.Element → Except PyErr (List Made)
  | [] => .ok []
  | x :: xs => match Objects.kindOf (tagOf x) with
    | none => makeKids M xs
    | some k => match make M k x with
      | .error e => .error e
      | .ok m => match makeKids M xs with
        | .error e => .error e
        | .ok ms => .ok (m :: ms)

/-- core.py 258-261: a file area. `os.path.join` raises TypeError if there is no file name. -/
def makeArea (M : Machine) (x : Xml.Element) : Except PyErr (Objects.Area × List Made) :=
  match firstText c!"file_name" x with
  | some (some f) => match makeKids M (kidsOf x) with
    | .error e => .error e
    | .ok ms => .ok (⟨tagOf x, some f, ms.map (·.element)⟩, ms)
  | _ => .error .typeError

/-- core.py 257-309: the file areas one after the other -/
def makeAreas (M : Machine) : List Xml.Element → Except PyErr (List (Objects.Area × List Made))
  | [] => .ok []
  | x :: xs => match makeArea M x with
    | .error e => .error e
    | .ok a => match makeAreas M xs with
      | .error e => .error e
      | .ok as => .ok (a :: as)

/-- a PDS4 product that has been opened: its names, and what they stand for with their XML and descriptions, without the label -/
structure Opened where
  index : List Str
  entries : List (Str × Objects.Found × Xml.Element × Dict)

/-- core.py 200-213 and 216-309, pdr.py 335-348: open a product; `dir` is the directory of the label and `root` the root of its XML -/
def openLabel (M : Machine) (dir : Str) (root : Xml.Element) : Except PyErr Opened :=
  match makeAreas M (areas (Xml.convenient root)) with
  | .error e => .error e
  | .ok as => match Objects.readAreas dir (as.map Prod.fst) (fun _ => 0) with
    | .error e => .error e
    | .ok found =>
      if contains (tagOf (Xml.convenient root)) c!"Product" then
        let entries := (found.zip (as.flatMap (fun a => a.2.map (·.dict)))).map (fun s => (Objects.keyOf s.1.id, s.1, s.2))
        .ok ⟨entries.map Prod.fst ++ [c!"label"], entries⟩
      else .error .valueError

/-- checkers.py 1340-1403 `check_special_pds4_cases`: parts of the file name, and the names of objects -/
def specialCases : List (List Str × List Str) :=
  [([c!"CE6-L_GRAS_LMS-M", c!"SCI", c!".2B"], [c!"TABLE_0"]), ([c!"CE6-L_GRAS_LMS-S", c!"SCI", c!".2B"], [c!"TABLE_0"]),
   ([c!"CE6-L_GRAS_LMS-N", c!"SCI", c!".2B"], [c!"TABLE_0"]), ([c!"CE5-L_GRAS_LMS-N", c!"SCI", c!".2B"], [c!"TABLE_0"]),
   ([c!"CE5-L_GRAS_LMS-M", c!"SCI", c!".2B"], [c!"TABLE_0"]), ([c!"CE4_GRAS_ASAN-SCI_SCI", c!".2B"], [c!"TABLE_0"]),
   ([c!"CE4_GRAS_LND-DPSL_SCI", c!".2A"], [c!"TABLE_0"]), ([c!"CE4_GRAS_LND-ThN_SCI", c!".2A"], [c!"TABLE_0"]),
   ([c!"CE4_GRAS_LND-TID_SCI", c!".2A"], [c!"TABLE_0"]), ([c!"CE4_GRAS_VNIS-SD_SCI", c!".2B"], [c!"TABLE_0"]),
   ([c!"ch2_cla_l1_"], [c!"header_Data", c!"data"])]

/-- is one of the special readers used? -/
def special (filename name : Str) : Bool :=
  specialCases.any (fun c => c.1.all (contains filename) && c.2.any (fun n => n = name))

/-- utils.py 260-263: does the path end like those of FITS files? -/
def isFits (path : Str) : Bool := Dispatch.fitsExtensions.any (endsWith (lower path))

/-- a number that is not negative -/
def natOf : Option Value → Option Nat
  | some (.leaf (some (.int n))) => if 0 ≤ n then some n.toNat else none
  | _ => none

/-- a text -/
def strOf : Option Value → Option Str
  | some (.leaf (some (.text s))) => some s
  | _ => none

/-- an Axis_Array with numbers -/
def axisOf : Value → Option Pds4Array.Axis
  | .map a => match natOf (a.lookup c!"sequence_number"), natOf (a.lookup c!"elements") with
    | some s, some n => some ⟨s, n⟩
    | _, _ => none
  | _ => none

/-- one of the Special_Constants -/
def constOf : Str × Value → Option (Str × Const)
  | (k, .leaf (some (.int n))) => some (k, .int n)
  | (k, .leaf (some (.float x))) => some (k, .real x)
  | (k, .leaf (some (.text s))) => some (k, .text s)
  | _ => none

/-- read_arrays.py 175, 215: the mask; the outer `none`: something else than a number -/
def maskOf (d : Dict) : Option (Option Nat) :=
  match d.lookup c!"Object_Statistics" with
  | none => some none
  | some (.leaf none) => some none
  | some (.map o) => match o.lookup c!"bit_mask" with
    | none => some none
    | some (.leaf none) => some none
    | v => (natOf v).map some
  | _ => none

/-- read_arrays.py 174, 219: the Special_Constants, which are looked at only if there is a mask -/
def constantsOf (d : Dict) : Option (Option (List (Str × Const))) :=
  if maskOf d = some none then some none
  else match d.lookup c!"Special_Constants" with
  | none => some none
  | some (.leaf none) => some none
  | some (.map o) => (o.mapM constOf).map some
  | _ => none

/-- array_objects.py 412-470, read_arrays.py 42-60, 174-176, 215: what the description says about the array. `none`: numbers
that are no numbers, and the like, which are not followed any further. -/
def arrayLabel (d : Dict) : Option Label :=
  match natOf (d.lookup c!"offset"), (axisArrays d).mapM axisOf, d.lookup c!"Element_Array", maskOf d, constantsOf d with
  | some offset, some axes, some (.map e), some mask, some constants => match strOf (e.lookup c!"data_type") with
    | some type => some ⟨offset, axes, type, mask, constants⟩
    | none => none
  | _, _, _, _, _ => none

/-! ### tables -/

/-- the fields and groups of a record or group with their descriptions, in the order of the label -/
inductive Raw
  | nil
  | field (d : Dict) (rest : Raw)
  | group (d : Dict) (inner rest : Raw)

/-- general_objects.py 552-580 with `tag_modify`: the description of a field or group, where the prefix (`field_`, `group_`) is removed
from names. AttributeError if the element has neither children nor attributes. -/
def loadPart (E : Xml.Floats ℚ) (pre : Str) (x : Xml.Element) : Except PyErr Dict :=
  match (Xml.xmlToDict E ⟨true, true, Xml.castIgnore, [(pre, [])]⟩ x).2 with
  | .map entries => .ok (Xml.update [] entries)
  | _ => .error .attributeError

/-- table_objects.py 1610-1633, 1665-1684, 1696-1727, 1739-1758: the description of a Field_Character, Field_Binary or Field_Delimited -/
def loadField (E : Xml.Floats ℚ) (type : Str) (x : Xml.Element) : Except PyErr Dict :=
  match loadPart E c!"field_" x with
  | .error e => .error e
  | .ok d =>
    if hasKeys (if type = c!"Delimited" then [c!"name", c!"data_type"] else [c!"name", c!"location", c!"length", c!"data_type"]) d then .ok d
    else .error .invalidLabel

/-- table_objects.py 1854-1880: the description of a Group_Field_Character, Group_Field_Binary or Group_Field_Delimited -/
def loadGroup (E : Xml.Floats ℚ) (type : Str) (x : Xml.Element) : Except PyErr Dict :=
  match loadPart E c!"group_" x with
  | .error e => .error e
  | .ok d =>
    if hasKeys (if type = c!"Delimited" then [c!"repetitions", c!"fields", c!"groups"]
      else [c!"repetitions", c!"fields", c!"groups", c!"location", c!"length"]) d then .ok d
    else .error .invalidLabel

mutual
/-- table_objects.py 1030-1088 `_add_fields_and_groups`, for the type Character, Binary or Delimited -/
def rawOf (E : Xml.Floats ℚ) (type : Str) : Xml.Element → Except PyErr Raw
  | .mk _ _ _ kids => rawL E type kids
/-- the children -/
def rawL (E : Xml.Floats ℚ) (type : Str) : List Xml.Element → Except PyErr Raw
  | [] => .ok .nil
  | x :: xs =>
    if tagOf x = c!"Field_" ++ type then
      match loadField E type x with
      | .error e => .error e
      | .ok d => match rawL E type xs with
        | .error e => .error e
        | .ok rest => .ok (.field d rest)
    else if tagOf x = c!"Group_Field_" ++ type then
      match loadGroup E type x with
      | .error e => .error e
      | .ok d => match rawOf E type x with
        | .error e => .error e
        | .ok inner => match rawL E type xs with
          | .error e => .error e
          | .ok rest => .ok (.group d inner rest)
    else rawL E type xs
end

/-- table_objects.py 1327-1328: `int(record_xml.findtext(key))` -/
def checkCount (key : Str) (record : Xml.Element) : Except PyErr Unit :=
  match (kidsOf record).find? (fun k => tagOf k = key) with
  | none => .error .typeError
  | some k => match Literal.pyInt ((textOf k).getD []) 10 with
    | none => .error .valueError
    | some _ => .ok ()

/-- table_objects.py 1369-1374: the formats of fields have to be texts: `re.match` of something else is a TypeError. (What the formats
are is only reported.) -/
def checkFormats : Raw → Except PyErr Unit
  | .nil => .ok ()
  | .field d rest => match d.lookup c!"format" with
    | none => checkFormats rest
    | some (.leaf (some (.text _))) => checkFormats rest
    | some _ => .error .typeError
  | .group _ inner rest => match checkFormats inner with
    | .error e => .error e
    | .ok _ => checkFormats rest

/-- the name of a group, which may be missing; the outer `none`: something else than a text -/
def groupName (d : Dict) : Option (Option Str) :=
  match d.lookup c!"name" with
  | none => some none
  | some (.leaf (some (.text s))) => some (some s)
  | _ => none

/-- the description of a field with its numbers (fields of delimited tables have no places); `none`: numbers that are no numbers, and the
like, which are not followed any further -/
def fieldOf (type : Str) (d : Dict) : Option Pds4Table.Field :=
  if type = c!"Delimited" then
    match strOf (d.lookup c!"name"), strOf (d.lookup c!"data_type") with
    | some name, some type => some ⟨name, 0, 0, type⟩
    | _, _ => none
  else match strOf (d.lookup c!"name"), natOf (d.lookup c!"location"), natOf (d.lookup c!"length"), strOf (d.lookup c!"data_type") with
    | some name, some location, some length, some type => some ⟨name, location, length, type⟩
    | _, _, _, _ => none

/-- the description of a group with its numbers, in the same way -/
def groupOf (type : Str) (d : Dict) : Option Pds4Table.Group :=
  if type = c!"Delimited" then
    match groupName d, natOf (d.lookup c!"repetitions") with
    | some name, some reps => some ⟨name, 0, 0, reps⟩
    | _, _ => none
  else match groupName d, natOf (d.lookup c!"location"), natOf (d.lookup c!"length"), natOf (d.lookup c!"repetitions") with
    | some name, some location, some length, some reps => some ⟨name, location, length, reps⟩
    | _, _, _, _ => none

/-- the fields and groups with their numbers, in the same way -/
def forestOf (type : Str) : Raw → Option Pds4Table.Forest
  | .nil => some .nil
  | .field d rest => match fieldOf type d, forestOf type rest with
    | some f, some rest => some (.field f rest)
    | _, _ => none
  | .group d inner rest => match groupOf type d, forestOf type inner, forestOf type rest with
    | some g, some inner, some rest => some (.group g inner rest)
    | _, _, _ => none

/-- table_objects.py 660-694 `TableManifest.from_label`, with the record: its fields and groups. Simplification: the formats are looked at
before the lengths of groups (`Pds4Table.validate`), so that another exception may be raised if both are wrong. -/
def tableParts (E : Xml.Floats ℚ) (type : Str) (record : Xml.Element) : Except PyErr Raw :=
  match rawOf E type record with
  | .error e => .error e
  | .ok raw => match checkCount c!"fields" record with
    | .error e => .error e
    | .ok _ => match checkCount c!"groups" record with
      | .error e => .error e
      | .ok _ => match checkFormats raw with
        | .error e => .error e
        | .ok _ => .ok raw

/-- table_objects.py 1090-1111: are there Uniformly_Sampled fields? -/
def sampled (x : Xml.Element) : Bool := (kidsOf x).any (fun k => tagOf k = c!"Uniformly_Sampled")

/-- read_tables.py 50-59, 851, 919 and 929-935: what the label says about a table with records of fixed length. `none`: tables with
Uniformly_Sampled fields, and numbers that are no numbers. -/
def tableLabel (x : Xml.Element) (d e : Dict) (type : Str) (raw : Raw) : Option Pds4Table.Label :=
  if sampled x then none
  else match natOf (d.lookup c!"offset"), natOf (d.lookup c!"records"), natOf (e.lookup c!"record_length"), forestOf type raw with
    | some offset, some records, some length, some body =>
      if tagOf x = c!"Table_Character" then some ⟨false, offset, records, length, [], body⟩
      else if tagOf x = c!"Table_Binary" then some ⟨true, offset, records, length, [], body⟩
      else none
    | _, _, _, _ => none

/-- read_tables.py 63-64: a number that may be missing; the outer `none`: something else than a number -/
def optNat (v : Option Value) : Option (Option Nat) :=
  match v with
  | none => some none
  | some (.leaf none) => some none
  | v => (natOf v).map some

/-- read_tables.py 470-475. `none`: other names -/
def fieldDelimOf (v : Option Value) : Option Pds4Delim.FieldDelim :=
  match strOf v with
  | none => none
  | some s =>
    if lower s = c!"comma" then some .comma
    else if lower s = c!"horizontal tab" then some .tab
    else if lower s = c!"semicolon" then some .semicolon
    else if lower s = c!"vertical bar" then some .bar
    else none

/-- read_tables.py 858-861. `none`: other names -/
def recordDelimOf (v : Option Value) : Option Pds4Delim.RecordDelim :=
  match strOf v with
  | none => none
  | some s =>
    if lower s = c!"line-feed" then some .lf
    else if lower s = c!"carriage-return line-feed" then some .crlf
    else none

/-- read_tables.py 50-71, 851-876 and 937: what the label says about a delimited table. `none`: tables with Uniformly_Sampled fields,
tables that are called Table_Character or Table_Binary, unknown delimiters, and numbers that are no numbers. -/
def delimLabel (x : Xml.Element) (d e : Dict) (raw : Raw) : Option Pds4Delim.Label :=
  if sampled x ∨ tagOf x ∈ [c!"Table_Character", c!"Table_Binary"] then none
  else match natOf (d.lookup c!"offset"), natOf (d.lookup c!"records"), optNat (d.lookup c!"object_length"),
      optNat (e.lookup c!"maximum_record_length"), fieldDelimOf (d.lookup c!"field_delimiter"),
      recordDelimOf (d.lookup c!"record_delimiter"), forestOf c!"Delimited" raw with
    | some offset, some records, some size, some most, some f, some r, some body => some ⟨offset, records, size, most, f, r, [], body⟩
    | _, _, _, _, _, _, _ => none

/-- read_tables.py 817-957 with pdr.py 751-760: read a table from its bytes. `none`: as before, and tables with masked values -/
def loadRecord (M : Machine) (file : Bytes) (x : Xml.Element) (d e : Dict) (type : Str) (raw : Raw) :
    Option (Except PyErr (List (Str × List Pds4Table.Cell))) :=
  if type = c!"Delimited" then
    match delimLabel x d e raw with
    | none => none
    | some l => match Pds4Delim.readDelimited M.env M.memory l file with
      | .error e => some (.error e)
      | .ok (.frame columns) => some (.ok columns)
      | .ok (.masked _) => none
  else match tableLabel x d e type raw with
    | none => none
    | some l => some (Pds4Table.readTable M.env l file)

/-- read_tables.py 817-957: read a table; `none` as before -/
def loadTable (M : Machine) (file : Option Bytes) (x : Xml.Element) (d : Dict) : Option (Except PyErr (List (Str × List Pds4Table.Cell))) :=
  match recordTag x with
  | none => some (.error .indexError)
  | some r =>
    if lastPart r ∉ [c!"Character", c!"Binary", c!"Delimited"] then none
    else match file, (kidsOf x).find? (fun k => tagOf k = r), d.lookup r with
      | none, _, _ => some (.error .ioError)
      | some file, some record, some (.map e) => match tableParts M.floats (lastPart r) record with
        | .error e => some (.error e)
        | .ok raw => loadRecord M file x d e (lastPart r) raw
      | _, _, _ => none

/-! ### reading -/

/-- the data of an object: an array, the columns of a table, or the bytes of a header -/
inductive Data
  | array (a : Arr Elem)
  | header (b : Bytes)
  | table (columns : List (Str × List Pds4Table.Cell))

/-- pdr.py 737-750: read an array -/
def loadArray (M : Machine) (file : Option Bytes) (d : Dict) : Option (Except PyErr (Arr Elem)) :=
  match arrayLabel d with
  | none => none
  | some l => match file with
    | none => some (.error .ioError)
    | some file => some (readArray M.oldNumPy l file)

/-- core.py 312-354 `read_byte_data`: the bytes from one place to another; 0 and less stand for the end of the file -/
def bytesBetween (file : Bytes) (start stop : Nat) : Bytes :=
  if 0 < stop then (file.drop start).take (stop - start) else file.drop start

/-- read_headers.py 28-33 and 66-68, pdr.py 763-764: read a header -/
def loadHeader (file : Option Bytes) (d : Dict) : Option (Except PyErr Bytes) :=
  match natOf (d.lookup c!"offset"), natOf (d.lookup c!"object_length") with
  | some offset, some length => match file with
    | none => some (.error .ioError)
    | some file => some (.ok (bytesBetween file offset (offset + length)))
  | _, _ => none

/-- pdr.py 714-764 `_load_pds4`: load an object. `filename`: the name of the file that was opened, `files`: what there is to read.
`none`: special readers, FITS files and the label, which other models are about, tables with masked values, and numbers that are
no numbers. -/
def load (M : Machine) (filename : Str) (files : Str → Option Bytes) (p : Opened) (name : Str) : Option (Except PyErr Data) :=
  if name = c!"label" then none
  else match p.entries.reverse.find? (fun e => e.1 = name) with
    | none => some (.error .keyError)
    | some (_, s, x, d) =>
      if special filename name || isFits s.path then none
      else match s.kind with
        | .array => (loadArray M (files s.path) d).map (fun r => r.map Data.array)
        | .table => (loadTable M (files s.path) x d).map (fun r => r.map Data.table)
        | .header => (loadHeader (files s.path) d).map (fun r => r.map Data.header)

/-- `pdr.read(filename)[name]` -/
def read (M : Machine) (dir filename : Str) (root : Xml.Element) (files : Str → Option Bytes) (name : Str) :
    Option (Except PyErr Data) :=
  match openLabel M dir root with
  | .error e => some (.error e)
  | .ok p => load M filename files p name

end Verif.Pds4Read
