/-
Specification of PDS4 delimited tables: how records are written, and which of the values of a record belongs to which field.
-/
import Verif.Spec.Pds4Table
import Verif.Model.Pds4Delim

namespace Verif.Pds4Delim.Spec
open Verif.Py Verif.Bits Verif.Table.Spec Verif.ImageFile.Spec Verif.Pds4Table Verif.Pds4Table.Spec

/-- The values of a record in order: for each the number of its field (from `n`) and the repetition of each of its groups,
of which `ks` are those around. -/
def valueSlots (n : Nat) (ks : List Nat) : Forest → List (Nat × List Nat)
  | .nil => []
  | .field _ rest => (n, ks) :: valueSlots (n + 1) ks rest
  | .group g inner rest =>
    ((List.range g.repetitions).flatMap (fun k => valueSlots n (ks ++ [k]) inner)) ++ valueSlots (n + (leaves [] inner).length) ks rest

/-- the field delimiters in ASCII -/
def fieldByte : FieldDelim → UInt8
  | .comma => 44
  | .tab => 9
  | .semicolon => 59
  | .bar => 124

/-- the record delimiters in ASCII -/
def recordBytes : RecordDelim → Bytes
  | .lf => [10]
  | .crlf => [13, 10]

/-- How a value is written with this delimiter: as it is, if it has no delimiter and does not start with a quote, or
between quotes, if it has no quotes itself. -/
inductive Written (d : UInt8) : Bytes → Bytes → Prop
  | plain {v : Bytes} : d ∉ v → v.head? ≠ some 34 → Written d v v
  | quoted {v : Bytes} : 34 ∉ v → Written d v (34 :: (v ++ [34]))

/-- the text of a record with these values -/
def RecordText (d : UInt8) (values : List Bytes) (text : Bytes) : Prop :=
  ∃ tokens, List.Forall₂ (Written d) values tokens ∧ text = List.intercalate [d] tokens

/-- the bytes of the table: from the offset on, as many as the label says, if it says so -/
def region (l : Label) (file : Bytes) : Bytes :=
  match l.objectLength, l.maxRecord with
  | some n, _ => (file.drop l.offset).take n
  | none, some m => (file.drop l.offset).take (l.records * m)
  | none, none => file.drop l.offset

/-- the records with delimiters between them, and after the last one nothing or a delimiter and whatever else -/
def Lines (sep : Bytes) (records : List Bytes) (b : Bytes) : Prop :=
  b = List.intercalate sep records ∨ ∃ more, b = List.intercalate sep records ++ sep ++ more

/-- In UTF-8, what is before and after an ASCII character is UTF-8 too. -/
def CutsAscii (E : Env) : Prop :=
  ∀ a c b, UInt8.toNat c < 128 → E.utf8 (a ++ c :: b) ≠ none → E.utf8 a ≠ none ∧ E.utf8 b ≠ none

/-- data types whose values are numbers or truth values -/
def Numbers (t : Str) : Prop := t ∉ textTypes ∧ t ≠ c!"SignedBitString" ∧ t ≠ c!"UnsignedBitString"

/-- not only white space -/
def NotBlank (b : Bytes) : Prop := ∃ c ∈ b, c ∉ ([9, 10, 11, 12, 13, 32] : List UInt8)

/-- A delimited table with these records, `rows[r][i]` being value `i` of record `r`. -/
structure Tabular (E : Env) (l : Label) (file : Bytes) (rows : List (List Bytes)) : Prop where
  some_records : 1 ≤ l.records
  some_fields : leaves [] l.body ≠ []
  sized : l.objectLength ≠ some 0 ∧ l.maxRecord ≠ some 0
  repeated : ∀ g ∈ groups l.body, 1 ≤ g.repetitions
  count : rows.length = l.records
  /-- the text of the table -/
  written : ∃ texts, List.Forall₂ (RecordText (fieldByte l.fieldDelim)) rows texts ∧
    (∀ t ∈ texts, ¬ (recordBytes l.recordDelim) <:+: t ∧ (34 ∈ t → E.utf8 t ≠ none)) ∧ Lines (recordBytes l.recordDelim) texts (region l file)

/-- a delimited table with the values it should have -/
structure Readable (E : Env) (l : Label) (file : Bytes) (rows : List (List Bytes)) : Prop extends Tabular E l file rows where
  no_uniform : l.uniform = []
  depth : ∀ p ∈ leaves [] l.body, p.2.length ≤ 2
  /-- one value for each repetition of each field -/
  complete : ∀ row ∈ rows, row.length = (valueSlots 0 [] l.body).length
  /-- every value is one of the data type of its field -/
  values : ∀ row ∈ rows, ∀ (i : Nat) (b : Bytes) (k : Nat) (ks : List Nat) (f : Field × List Group), row[i]? = some b → (valueSlots 0 [] l.body)[i]? = some (k, ks) →
    (leaves [] l.body)[k]? = some f → (∃ v, Means E false f.1.dataType b v) ∧ (Numbers f.1.dataType → NotBlank b)

/-- The block of columns for field `k`: for all repetitions of its groups, the last group fastest, a column with its name
and for each record the value that is written for it. -/
def Block (E : Env) (l : Label) (rows : List (List Bytes)) (p : (Field × List Group) × Nat) (block : List (Str × List Cell)) : Prop :=
  block.length = (reps p.1.2).prod ∧
  ∀ ks, Within (reps p.1.2) ks → ∃ col, block[lastFastest (reps p.1.2) ks]? = some (columnLabel p.1 ks, col) ∧
    col.length = l.records ∧
    ∀ (r : Nat) (row : List Bytes), rows[r]? = some row → ∃ (i : Nat) (b : Bytes) (c : Cell), (valueSlots 0 [] l.body)[i]? = some (p.2, ks) ∧ row[i]? = some b ∧ col[r]? = some c ∧
      ∀ v, Means E false p.1.1.dataType b v → Pds4Table.Spec.Is c v

/-- a value that stands for something, or a missing number (in a field where 0 stands for something) -/
def Legible (E : Env) (t : Str) (b : Bytes) : Prop :=
  ((∃ v, Means E false t b v) ∧ (Numbers t → NotBlank b)) ∨ (Numbers t ∧ ¬ NotBlank b ∧ ∃ v, Means E false t [48] v)

/-- what becomes of it: missing numbers are masked -/
def Becomes (E : Env) (t : Str) (b : Bytes) (o : Option Cell) : Prop :=
  (Numbers t ∧ ¬ NotBlank b → o = none) ∧
  (¬ (Numbers t ∧ ¬ NotBlank b) → ∃ c, o = some c ∧ ∀ v, Means E false t b v → Pds4Table.Spec.Is c v)

end Verif.Pds4Delim.Spec
