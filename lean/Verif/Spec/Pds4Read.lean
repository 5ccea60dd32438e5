/-
Specification of PDS4 products with arrays and tables, on the XML of the label.
-/
import Verif.Spec.Xml
import Verif.Spec.Objects
import Verif.Spec.Pds4Array
import Verif.Spec.Pds4Table
import Verif.Spec.Literal
import Verif.Model.Pds4Read

namespace Verif.Pds4Read.Spec
open Verif.Py Verif.Xml.Spec Verif.Objects.Spec Verif.Pds4Read

def kids : Doc → List Doc
  | .mk _ _ _ _ _ ks => ks

def text : Doc → Option Str
  | .mk _ _ _ _ t _ => t

open Classical in
/-- the name of an element: without a namespace if it has none or the PDS4 one -/
noncomputable def tag : Doc → Str
  | .mk _ none name _ _ _ => name
  | .mk _ (some u) name _ _ _ => if pds <:+: u then name else '{' :: u ++ '}' :: name

open Classical in
/-- the children of that name -/
noncomputable def named (n : Str) (x : Doc) : List Doc := (kids x).filter (fun k => decide (tag k = n))

/-- an element with this text (without white space around it, see `Xml.Spec.ShownText`) and without children -/
def Says (x : Doc) (s : Str) : Prop := kids x = [] ∧ ∃ t, text x = some t ∧ ¬ Blank t ∧ ShownText t s

/-- its text is this number -/
def SaysNat (x : Doc) (n : Nat) : Prop := ∃ s, Says x s ∧ Literal.Spec.Numeral 10 s n

/-- an element with children and without a text of its own -/
def Container (x : Doc) : Prop := kids x ≠ [] ∧ ∀ t, text x = some t → Blank t

/-- there is one child of that name, and this is so for it -/
def Field (x : Doc) (n : Str) (P : Doc → Prop) : Prop := ∃ c, named n x = [c] ∧ P c

/-- the text of the child of that name, if there is one -/
def Optional (x : Doc) (n : Str) : Option Str → Prop
  | none => named n x = []
  | some s => Field x n (fun c => Says c s)

/-- this is the first `file_name` in the area, in the order of the document -/
def FileName (area : Doc) (s : Str) : Prop :=
  ∃ before f after, elementsL (kids area) = before ++ f :: after ∧ tag f = c!"file_name" ∧ (∀ e ∈ before, tag e ≠ c!"file_name") ∧
    Says f s

/-- the file areas: observational, supplemental, ancillary, browse, inventory -/
noncomputable def areasIn (root : Doc) : List Doc :=
  named c!"File_Area_Observational" root ++ named c!"File_Area_Observational_Supplemental" root ++
    named c!"File_Area_Ancillary" root ++ named c!"File_Area_Browse" root ++ named c!"File_Area_Inventory" root

open Classical in
/-- the data structures of a file area, with the area -/
noncomputable def structuresOf (area : Doc) : List (Doc × Doc) :=
  ((kids area).filter (fun x => decide (∃ k, HasKind (tag x) k))).map (fun x => (area, x))

/-- the data structures of the label, with their file areas -/
noncomputable def structuresIn (root : Doc) : List (Doc × Doc) := (areasIn root).flatMap structuresOf

/-- `d` is what the label says about this structure: its kind, its local identifier and name, and the name of its file -/
structure Entry (area x : Doc) (d : Described) : Prop where
  container : Container x
  tag : d.element.tag = tag x
  kind : HasKind (Spec.tag x) d.kind
  localId : Optional x c!"local_identifier" d.element.localId
  name : Optional x c!"name" d.element.name
  file : FileName area d.file

/-- the elements that arrays must have -/
structure Complete (x : Doc) : Prop where
  offset : named c!"offset" x ≠ []
  axes : named c!"axes" x ≠ []
  some_axis : named c!"Axis_Array" x ≠ []
  axis : ∀ a ∈ named c!"Axis_Array" x, Container a ∧ named c!"axis_name" a ≠ [] ∧ named c!"elements" a ≠ [] ∧
    named c!"sequence_number" a ≠ []
  element : Field x c!"Element_Array" (fun e => Container e ∧ named c!"data_type" e ≠ [])

/-- the elements that tables must have: the first child with `Record_` in its name is the record, the only one of its name -/
def CompleteTable (x : Doc) : Prop :=
  ∃ before r after, kids x = before ++ r :: after ∧ (∀ k ∈ before, ¬ c!"Record_" <:+: tag k) ∧ named (tag r) x = [r] ∧ Container r ∧
    named c!"offset" x ≠ [] ∧ named c!"records" x ≠ [] ∧ named c!"fields" r ≠ [] ∧ named c!"groups" r ≠ [] ∧
    ((tag r = c!"Record_Character" ∨ tag r = c!"Record_Binary") ∧ named c!"record_length" r ≠ [] ∨
      tag r = c!"Record_Delimited" ∧ named c!"record_delimiter" x ≠ [] ∧ named c!"field_delimiter" x ≠ [])

/-- the elements that headers must have -/
def CompleteHeader (x : Doc) : Prop :=
  named c!"offset" x ≠ [] ∧ named c!"object_length" x ≠ [] ∧ named c!"parsing_standard_id" x ≠ []

/-- names as XML has them: no slashes in names of elements, no braces in namespaces -/
def NamedAs : Doc → Prop
  | .mk _ ns name _ _ _ => '/' ∉ name ∧ ∀ u, ns = some u → '}' ∉ u

/-- A label that can be opened, with these data structures -/
structure Valid (root : Doc) (ds : List Described) : Prop where
  names : ∀ e ∈ elements root, NamedAs e
  product : c!"Product" <:+: tag root
  files : ∀ a ∈ areasIn root, ∃ f, FileName a f
  entries : List.Forall₂ (fun p d => Entry p.1 p.2 d) (structuresIn root) ds
  arrays : ∀ p ∈ structuresIn root, HasKind (tag p.2) .array → Complete p.2
  tables : ∀ p ∈ structuresIn root, HasKind (tag p.2) .table → CompleteTable p.2
  headers : ∀ p ∈ structuresIn root, HasKind (tag p.2) .header → CompleteHeader p.2

/-- an Axis_Array with these numbers -/
structure AxisDoc (x : Doc) (a : Pds4Array.Axis) : Prop where
  number : Field x c!"sequence_number" (fun c => SaysNat c a.sequenceNumber)
  elements : Field x c!"elements" (fun c => SaysNat c a.elements)

/-- there is no bit mask -/
def NoMask (x : Doc) : Prop :=
  named c!"Object_Statistics" x = [] ∨ Field x c!"Object_Statistics" (fun o => Container o ∧ named c!"bit_mask" o = [])

/-- an array with this bit mask, and without special constants -/
def HasMask (x : Doc) (mask : Str) : Prop :=
  Field x c!"Object_Statistics" (fun o => Container o ∧ Field o c!"bit_mask" (fun c => Says c mask)) ∧ named c!"Special_Constants" x = []

/-- the description of an array -/
structure ArrayDoc (x : Doc) (offset : Nat) (axes : List Pds4Array.Axis) (type : Str) : Prop where
  offset : Field x c!"offset" (fun c => SaysNat c offset)
  axes : List.Forall₂ AxisDoc (named c!"Axis_Array" x) axes
  type : Field x c!"Element_Array" (fun e => Field e c!"data_type" (fun c => Says c type))

/-- the description of a header -/
structure HeaderDoc (x : Doc) (offset length : Nat) : Prop where
  offset : Field x c!"offset" (fun c => SaysNat c offset)
  length : Field x c!"object_length" (fun c => SaysNat c length)

/-! ### tables -/

open Classical in
/-- the children of that name, with or without the prefix -/
noncomputable def called (pre n : Str) (x : Doc) : List Doc := (kids x).filter (fun k => decide (tag k = n ∨ tag k = pre ++ n))

/-- there is one such child, and this is so for it -/
def Part (pre : Str) (x : Doc) (n : Str) (P : Doc → Prop) : Prop := ∃ c, called pre n x = [c] ∧ P c

/-- no child has the prefix in its name except at the beginning, and once -/
def PlainNames (pre : Str) (x : Doc) : Prop := ∀ k ∈ kids x, ¬ pre <:+: tag k ∨ ∃ n, tag k = pre ++ n ∧ ¬ pre <:+: n

/-- a text that is no number -/
def Wordy (M : Machine) (s : Str) : Prop := (∃ c ∈ s, c.isAlpha = true ∨ c = '%') ∧ M.floats.parse s = none

/-- the description of a field; its format may be missing. In delimited tables fields have no places. -/
structure FieldDoc (M : Machine) (type : Str) (x : Doc) (f : Pds4Table.Field) : Prop where
  container : Container x
  plain : PlainNames c!"field_" x
  name : Part c!"field_" x c!"name" (fun c => Says c f.name)
  place : if type = c!"Delimited" then f.location = 0 ∧ f.length = 0 else
    Part c!"field_" x c!"location" (fun c => SaysNat c f.location) ∧ Part c!"field_" x c!"length" (fun c => SaysNat c f.length)
  type : Part c!"field_" x c!"data_type" (fun c => Says c f.dataType)
  wordy : Wordy M f.dataType
  format : called c!"field_" c!"format" x = [] ∨ Part c!"field_" x c!"format" (fun c => ∃ s, Says c s ∧ Wordy M s)

/-- the description of a group; its name may be missing. In delimited tables groups have no places. -/
structure GroupDoc (type : Str) (x : Doc) (g : Pds4Table.Group) : Prop where
  container : Container x
  plain : PlainNames c!"group_" x
  name : match g.name with
    | none => called c!"group_" c!"name" x = []
    | some s => Part c!"group_" x c!"name" (fun c => Says c s)
  place : if type = c!"Delimited" then g.location = 0 ∧ g.length = 0 else
    Part c!"group_" x c!"location" (fun c => SaysNat c g.location) ∧ Part c!"group_" x c!"length" (fun c => SaysNat c g.length)
  repetitions : Part c!"group_" x c!"repetitions" (fun c => SaysNat c g.repetitions)
  fields : called c!"group_" c!"fields" x ≠ []
  groups : called c!"group_" c!"groups" x ≠ []

/-- The fields and groups among these elements, in the order of the document, for tables of this type; other elements do not count. -/
inductive Contents (M : Machine) (type : Str) : List Doc → Pds4Table.Forest → Prop
  | nil : Contents M type [] .nil
  | other {x : Doc} {xs : List Doc} {rest : Pds4Table.Forest} : tag x ≠ c!"Field_" ++ type → tag x ≠ c!"Group_Field_" ++ type →
      Contents M type xs rest → Contents M type (x :: xs) rest
  | field {x : Doc} {f : Pds4Table.Field} {xs : List Doc} {rest : Pds4Table.Forest} : tag x = c!"Field_" ++ type → FieldDoc M type x f →
      Contents M type xs rest → Contents M type (x :: xs) (.field f rest)
  | group {x : Doc} {g : Pds4Table.Group} {xs : List Doc} {inner rest : Pds4Table.Forest} : tag x = c!"Group_Field_" ++ type →
      GroupDoc type x g → Contents M type (kids x) inner → Contents M type xs rest → Contents M type (x :: xs) (.group g inner rest)

/-- Character or Binary -/
def typeName (binary : Bool) : Str := if binary then c!"Binary" else c!"Character"

/-- the description of a table with records of fixed length, without Uniformly_Sampled fields -/
structure TableDoc (M : Machine) (x : Doc) (l : Pds4Table.Label) : Prop where
  tag : tag x = c!"Table_" ++ typeName l.binary
  offset : Field x c!"offset" (fun c => SaysNat c l.offset)
  records : Field x c!"records" (fun c => SaysNat c l.records)
  record : Field x (c!"Record_" ++ typeName l.binary) (fun r => Container r ∧ Field r c!"record_length" (fun c => SaysNat c l.recordLength) ∧
    Field r c!"fields" (fun c => ∃ n, SaysNat c n) ∧ Field r c!"groups" (fun c => ∃ n, SaysNat c n) ∧
    Contents M (typeName l.binary) (kids r) l.body)
  only : ∀ k ∈ kids x, c!"Record_" <:+: Spec.tag k → Spec.tag k = c!"Record_" ++ typeName l.binary
  no_uniform : named c!"Uniformly_Sampled" x = [] ∧ l.uniform = []

/-- the number in the child of that name, if there is one -/
def OptionalNat (x : Doc) (n : Str) : Option Nat → Prop
  | none => named n x = []
  | some m => Field x n (fun c => SaysNat c m)

/-- the names of field delimiters, without regard to case -/
def fieldDelimName : Pds4Delim.FieldDelim → Str
  | .comma => c!"comma"
  | .tab => c!"horizontal tab"
  | .semicolon => c!"semicolon"
  | .bar => c!"vertical bar"

/-- the names of record delimiters, without regard to case -/
def recordDelimName : Pds4Delim.RecordDelim → Str
  | .lf => c!"line-feed"
  | .crlf => c!"carriage-return line-feed"

/-- the description of a delimited table, without Uniformly_Sampled fields -/
structure DelimDoc (M : Machine) (x : Doc) (l : Pds4Delim.Label) : Prop where
  tag : tag x ≠ c!"Table_Character" ∧ tag x ≠ c!"Table_Binary"
  offset : Field x c!"offset" (fun c => SaysNat c l.offset)
  records : Field x c!"records" (fun c => SaysNat c l.records)
  objectLength : OptionalNat x c!"object_length" l.objectLength
  fieldDelim : Field x c!"field_delimiter" (fun c => ∃ s, Says c s ∧ Wordy M s ∧ lower s = fieldDelimName l.fieldDelim)
  recordDelim : Field x c!"record_delimiter" (fun c => ∃ s, Says c s ∧ Wordy M s ∧ lower s = recordDelimName l.recordDelim)
  record : Field x c!"Record_Delimited" (fun r => Container r ∧ OptionalNat r c!"maximum_record_length" l.maxRecord ∧
    Field r c!"fields" (fun c => ∃ n, SaysNat c n) ∧ Field r c!"groups" (fun c => ∃ n, SaysNat c n) ∧
    Contents M c!"Delimited" (kids r) l.body)
  only : ∀ k ∈ kids x, c!"Record_" <:+: Spec.tag k → Spec.tag k = c!"Record_Delimited"
  no_uniform : named c!"Uniformly_Sampled" x = [] ∧ l.uniform = []

/-- an element at any depth below groups of this type -/
inductive Inside (type : Str) : Doc → Doc → Prop
  | here {r x : Doc} : x ∈ kids r → Inside type r x
  | deeper {r g x : Doc} : g ∈ kids r → tag g = c!"Group_Field_" ++ type → Inside type g x → Inside type r x

/-- no special reader is used for this object of this product -/
def Ordinary (filename name : Str) : Prop :=
  (name = c!"TABLE_0" → ¬ c!"_GRAS_" <:+: filename) ∧ (name = c!"header_Data" ∨ name = c!"data" → ¬ c!"ch2_cla_l1_" <:+: filename)

/-- the name of a FITS file -/
def FitsName (path : Str) : Prop := ∃ ext ∈ [c!".fits", c!".fit", c!".fits.gz", c!".fit.gz", c!".fz"], ext <:+ lower path

end Verif.Pds4Read.Spec
