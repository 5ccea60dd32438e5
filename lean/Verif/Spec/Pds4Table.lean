/-
Specification of PDS4 tables with records of fixed length: where the values lie, what they mean, how columns are named.
-/
import Verif.Spec.Pds4Array
import Verif.Spec.Literal
import Verif.Model.Pds4Table

namespace Verif.Pds4Table.Spec
open Verif.Py Verif.Bits Verif.Datatypes Verif.Image Verif.Table.Spec Verif.ImageFile Verif.ImageFile.Spec Verif.Pds4Array.Spec
  Verif.Literal.Spec Verif.Pds4Table

/-- the fields in the order of the label, each with the groups it is in, the outermost first -/
def leaves (gs : List Group) : Forest → List (Field × List Group)
  | .nil => []
  | .field f rest => (f, gs) :: leaves gs rest
  | .group g inner rest => leaves (gs ++ [g]) inner ++ leaves gs rest

/-- all groups of the table -/
def groups : Forest → List Group
  | .nil => []
  | .field _ rest => groups rest
  | .group g inner rest => g :: groups inner ++ groups rest

/-- the numbers of repetitions of the groups -/
def reps (gs : List Group) : List Nat := gs.map (·.repetitions)

/-- Where, within the record, the value of a field is, for repetition `k` (from 0) of each of its groups. Locations count
from 1 and are relative to the group (or record) around; the repetitions of a group divide its length. -/
def inRecord (f : Field) : List Group → List Nat → Nat
  | g :: gs, k :: ks => (g.location - 1) + k * (g.length / g.repetitions) + inRecord f gs ks
  | _, _ => f.location - 1

/-- the address of the value in the file, for record `r` (from 0) -/
def address (l : Label) (f : Field) (gs : List Group) (r : Nat) (ks : List Nat) : Nat :=
  l.offset + r * l.recordLength + inRecord f gs ks

/-- the bytes are the text -/
def Ascii (b : Bytes) (s : Str) : Prop := b.map UInt8.toNat = s.map Char.toNat

/-- bytes with spaces around a text -/
def Padded (b : Bytes) (s : Str) : Prop :=
  ∃ i j t, b = List.replicate i 32 ++ t ++ List.replicate j 32 ∧ Ascii t s

/-- the data types for texts: everything that is not a number, a truth value or a bit string -/
def textTypes : List Str :=
  [c!"ASCII_AnyURI", c!"ASCII_DOI", c!"ASCII_Date_DOY", c!"ASCII_Date_Time_DOY", c!"ASCII_Date_Time_DOY_UTC",
   c!"ASCII_Date_Time_YMD", c!"ASCII_Date_Time_YMD_UTC", c!"ASCII_Date_YMD", c!"ASCII_Directory_Path_Name",
   c!"ASCII_File_Name", c!"ASCII_File_Specification_Name", c!"ASCII_LID", c!"ASCII_LIDVID", c!"ASCII_LIDVID_LID",
   c!"ASCII_MD5_Checksum", c!"ASCII_String", c!"ASCII_Time", c!"ASCII_VID", c!"UTF8_String"]

/-- The bytes stand for the value: by the data type of the field, in a binary or character table. Trailing NULs of a text
do not count. -/
inductive Means (E : Env) (binary : Bool) : Str → Bytes → Value → Prop
  | number {t : Str} {d : Dtype} {b : Bytes} {v : Value} : binary = true → Pds4Type t d → Stored d b v → Means E binary t b v
  | integer {b : Bytes} {s : Str} {n : Int} : Padded b s → SignedNumeral 10 s n → -(2 ^ 63) < n → n < 2 ^ 63 →
      Means E binary c!"ASCII_Integer" b (.int n)
  | nonNegative {b : Bytes} {s : Str} {n : Int} : Padded b s → SignedNumeral 10 s n → 0 ≤ n → n < 2 ^ 64 →
      Means E binary c!"ASCII_NonNegative_Integer" b (.int n)
  | inBase {k : Nat} {b : Bytes} {s : Str} {n : Nat} : k = 2 ∨ k = 8 ∨ k = 16 → Padded b s → Numeral k s n →
      Means E binary (c!"ASCII_Numeric_Base" ++ natStr k) b (.int n)
  | real {b : Bytes} {x : ℚ} : E.float .f64 b = some (some x) → Means E binary c!"ASCII_Real" b (.real x)
  | notFinite {b : Bytes} : E.float .f64 b = some none → Means E binary c!"ASCII_Real" b .notFinite
  | boolean {b : Bytes} {v : Bool} : Padded b (if v then c!"true" else c!"false") → Means E binary c!"ASCII_Boolean" b (.bool v)
  | text {t : Str} {b : Bytes} {k : Nat} {s : Str} : t ∈ textTypes → b.getLast? ≠ some 0 → E.utf8 b = some s →
      Means E binary t (b ++ List.replicate k 0) (.text s)
  | bits {t : Str} {b : Bytes} : t = c!"SignedBitString" ∨ t = c!"UnsignedBitString" → b.getLast? ≠ some 0 →
      Means E binary t b (.bytes b)

/-- the cell is this value -/
inductive Is : Cell → Value → Prop
  | elem {e : Elem} {v : Value} : ImageFile.Spec.Is e v → Is (.elem e) v
  | bool {b : Bool} : Is (.bool b) (.bool b)
  | text {s : Str} : Is (.text s) (.text s)

/-- A table whose values are all in place: there are records, the file has all of them, the repetitions divide the groups,
the values lie within the record and stand for something. -/
structure Placed (E : Env) (l : Label) (file : Bytes) : Prop where
  some_records : 1 ≤ l.records
  whole : l.offset + l.records * l.recordLength ≤ file.length
  divides : ∀ g ∈ groups l.body, 1 ≤ g.repetitions ∧ g.repetitions ∣ g.length ∧ 1 ≤ g.location
  located : ∀ p ∈ leaves [] l.body, 1 ≤ p.1.location
  within : ∀ p ∈ leaves [] l.body, ∀ ks, Within (reps p.2) ks → inRecord p.1 p.2 ks + p.1.length ≤ l.recordLength
  values : ∀ p ∈ leaves [] l.body, ∀ r < l.records, ∀ ks, Within (reps p.2) ks →
    ∃ v, Means E l.binary p.1.dataType (bytesAt file (address l p.1 p.2 r ks) p.1.length) v

/-- a table of this kind with no field in more than two groups -/
structure Readable (E : Env) (l : Label) (file : Bytes) : Prop extends Placed E l file where
  depth : ∀ p ∈ leaves [] l.body, p.2.length ≤ 2

/-! ### names -/

/-- a name that reaches the columns as it is -/
def NameOk (s : Str) : Prop :=
  s ≠ [] ∧ ',' ∉ s ∧ ':' ∉ s ∧ ¬ c!"GROUP" <:+: s ∧ s.head? ≠ some ' ' ∧ s.getLast? ≠ some ' '

/-- the names of the fields that are directly here -/
def fieldsHere : Forest → List Str
  | .nil => []
  | .field f rest => f.name :: fieldsHere rest
  | .group _ _ rest => fieldsHere rest

/-- the names given to the groups that are directly here -/
def groupsHere : Forest → List Str
  | .nil => []
  | .field _ rest => groupsHere rest
  | .group g _ rest => g.name.toList ++ groupsHere rest

/-- Names are plain, and fields beside each other have different names, and groups too, as far as they have names. -/
def Named : Forest → Prop
  | .nil => True
  | .field f rest => NameOk f.name ∧ f.name ∉ fieldsHere rest ∧ Named rest
  | .group g inner rest => (∀ n, g.name = some n → NameOk n ∧ n ∉ groupsHere rest) ∧ Named inner ∧ Named rest

/-- the names of a table with its uniformly sampled fields -/
structure NamedTable (l : Label) : Prop where
  body : Named l.body
  uniform : ∀ u ∈ l.uniform, NameOk u.name ∧ u.name ∉ fieldsHere l.body
  different : (l.uniform.map (·.name)).Nodup

/-- The name of a column for a field in groups: the names of the groups and of the field, with commas between. A group
without a name leaves an empty place, unless no name comes before it; then it leaves nothing. -/
def columnLabel (p : Field × List Group) (ks : List Nat) : Str :=
  if p.2 = [] then p.1.name
  else join c!", " (((p.2.dropWhile (fun g => g.name.isNone)).map (fun g => g.name.getD [])) ++ [p.1.name]) ++ c!"_" ++
    natStr (lastFastest (reps p.2) ks)

/-- The block of columns for a field in groups: for all repetitions of the groups, the last group fastest, a column with
its name and for each record the value that is stored for it. -/
def Block (E : Env) (l : Label) (file : Bytes) (p : Field × List Group) (block : List (Str × List Cell)) : Prop :=
  block.length = (reps p.2).prod ∧
  ∀ ks, Within (reps p.2) ks → ∃ col, block[lastFastest (reps p.2) ks]? = some (columnLabel p ks, col) ∧
    col.length = l.records ∧
    ∀ r < l.records, ∀ v, Means E l.binary p.1.dataType (bytesAt file (address l p.1 p.2 r ks) p.1.length) v →
      ∃ c, col[r]? = some c ∧ Is c v

end Verif.Pds4Table.Spec
