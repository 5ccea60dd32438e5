/-
Specification of binary tables: what the bytes of a value mean, and where the values lie in the file.
-/
import Verif.Spec.Offsets
import Verif.Spec.Datatypes
import Verif.Model.Table
import Verif.Spec.Ibm
import Mathlib.Data.Nat.Digits.Defs

namespace Verif.Table.Spec
open Verif.Py Verif.Format Verif.Format.Spec Verif.Datatypes Verif.Datatypes.Spec Verif.Bits Verif.Scaling
open Verif.Ibm.Spec (ibmValue)

/-- a value of a table: a whole number, a real number, one that is not finite (NaN, infinite), characters as bytes,
uninterpreted bytes, a truth value, a text -/
inductive Value
  | int (n : Int)
  | real (x : ℚ)
  | notFinite
  | bytes (b : Bytes)
  | bool (b : Bool)
  | text (s : Str)

/-- bytes as a number, most or least significant byte first -/
def number : Order → Bytes → Nat
  | .big, bs => Nat.ofDigits 256 (bs.reverse.map UInt8.toNat)
  | .little, bs => Nat.ofDigits 256 (bs.map UInt8.toNat)

/-- IEEE 754: sign, exponent and fraction of a word with `m` bits of fraction and `e` of exponent -/
def Parts (m e w s ex f : Nat) : Prop := s < 2 ∧ ex < 2 ^ e ∧ f < 2 ^ m ∧ w = (s * 2 ^ e + ex) * 2 ^ m + f

/-- the number an IEEE 754 word stands for -/
def IsReal (m e w : Nat) (x : ℚ) : Prop :=
  ∃ s ex f, Parts m e w s ex f ∧ ex < 2 ^ e - 1 ∧
    x = (-1) ^ s * (if ex = 0 then (f : ℚ) / 2 ^ m * 2 ^ (2 - 2 ^ (e - 1) : Int)
      else (1 + (f : ℚ) / 2 ^ m) * 2 ^ ((ex : Int) - (2 ^ (e - 1) - 1)))

/-- the words of NaNs and infinities -/
def IsNotFinite (m e w : Nat) : Prop := ∃ s f, Parts m e w s (2 ^ e - 1) f

/-- How a value of a dtype is stored. Signed integers are in two's complement; trailing NULs of a character value do
not count. -/
inductive Stored : Dtype → Bytes → Value → Prop
  | unsigned {o : Order} {n : Nat} {bs : Bytes} {v : Int} : bs.length = n → v = number o bs →
      Stored ⟨some o, .uint, n⟩ bs (.int v)
  | signed {o : Order} {n : Nat} {bs : Bytes} {v : Int} : 0 < n → bs.length = n → (v - number o bs) % 2 ^ (8 * n) = 0 →
      -(2 ^ (8 * n - 1)) ≤ v → v < 2 ^ (8 * n - 1) → Stored ⟨some o, .int, n⟩ bs (.int v)
  | single {o : Order} {bs : Bytes} {x : ℚ} : bs.length = 4 → IsReal 23 8 (number o bs) x →
      Stored ⟨some o, .float, 4⟩ bs (.real x)
  | double {o : Order} {bs : Bytes} {x : ℚ} : bs.length = 8 → IsReal 52 11 (number o bs) x →
      Stored ⟨some o, .float, 8⟩ bs (.real x)
  | singleNot {o : Order} {bs : Bytes} : bs.length = 4 → IsNotFinite 23 8 (number o bs) →
      Stored ⟨some o, .float, 4⟩ bs .notFinite
  | doubleNot {o : Order} {bs : Bytes} : bs.length = 8 → IsNotFinite 52 11 (number o bs) →
      Stored ⟨some o, .float, 8⟩ bs .notFinite
  | chars {n k : Nat} {b : Bytes} : b.length + k = n → b.getLast? ≠ some 0 →
      Stored ⟨none, .bytes, n⟩ (b ++ List.replicate k 0) (.bytes b)
  | raw {n : Nat} {b : Bytes} : b.length = n → Stored ⟨none, .void, n⟩ b (.bytes b)

/-- not one of the real types of IBM and VAX -/
def Native (t : Str) : Prop := ¬ ((c!"IBM" <+: t ∨ c!"VAX" <+: t) ∧ c!"REAL" <:+: t)

/-- VAX F-floating numbers: of a 32-bit word (least significant byte first), bit 15 is the sign, bits 14-7 are the
exponent (excess 128), bits 6-0 and 31-16 the fraction after a hidden bit; exponent and sign 0 stand for 0 -/
inductive VaxReal (w : Nat) : ℚ → Prop
  | zero : w / 2 ^ 7 % 2 ^ 9 = 0 → VaxReal w 0
  | real : w / 2 ^ 7 % 2 ^ 8 ≠ 0 → VaxReal w ((-1) ^ (w / 2 ^ 15 % 2) *
      (1 / 2 + (((w % 2 ^ 7) * 2 ^ 16 + w / 2 ^ 16 % 2 ^ 16 : Nat) : ℚ) / 2 ^ 24) * 2 ^ (((w / 2 ^ 7 % 2 ^ 8 : Nat) : Int) - 128))

/-- what is relied on of `vax.from_vax32`: it converts the numbers that IEEE single precision can hold -/
def ReadsVax (vax32 : Nat → Option ℚ) : Prop := ∀ w x, VaxReal w x → Float.Rep Float.single x → vax32 w = some x

/-- How a value of a PDS3 type and width is stored: booleans are integers, 0 for false; EBCDIC texts are in code page
500. IBM reals are covered as far as float32 can hold them (4 bytes; C54 is about the others) or float64 (8 bytes; see C16
for the others), VAX reals as far as float32 can hold them. -/
inductive Encodes (cp500 : UInt8 → Char) : Str → Nat → Bytes → Value → Prop
  | plain {t : Str} {n : Nat} {d : Dtype} {bs : Bytes} {v : Value} : Means (underscored t) n d → t ≠ c!"BOOLEAN" →
      ¬ c!"EBCDIC" <:+: t → Native t → Stored d bs v → Encodes cp500 t n bs v
  | bool {n : Nat} {d : Dtype} {bs : Bytes} {v : Int} : Means c!"BOOLEAN" n d → Stored d bs (.int v) →
      Encodes cp500 c!"BOOLEAN" n bs (.bool (v ≠ 0))
  | ebcdic {t : Str} {n : Nat} {bs : Bytes} : underscored t ∈ [c!"EBCDIC", c!"EBCDIC_CHARACTER"] → bs.length = n →
      Encodes cp500 t n bs (.text (bs.map cp500))
  | ibmShort {t : Str} {bs : Bytes} : underscored t = c!"IBM_REAL" → bs.length = 4 →
      (ibmValue 32 (number .big bs) = 0 ∨ 2 ^ (-126 : Int) ≤ |ibmValue 32 (number .big bs)|) →
      Encodes cp500 t 4 bs (.real (ibmValue 32 (number .big bs)))
  | ibmLong {t : Str} {bs : Bytes} : underscored t = c!"IBM_REAL" → bs.length = 8 →
      (∃ k j : Nat, number .big bs % 2 ^ 56 = k * 2 ^ j ∧ k < 2 ^ 53) →
      Encodes cp500 t 8 bs (.real (ibmValue 64 (number .big bs)))
  | vax {t : Str} {bs : Bytes} {x : ℚ} : underscored t = c!"VAX_REAL" → bs.length = 4 → VaxReal (number .little bs) x →
      Float.Rep Float.single x → Encodes cp500 t 4 bs (.real x)

/-- a value of a row: its name and START_BYTE in the label, its first byte (from 0, within the record), its size, BYTES
of its column (of all items), and what the label says about it -/
structure Slot where
  name : Str
  start : Int
  off : Int
  size : Nat
  total : Nat
  attrs : Attrs

/-- the values of a column of an object that starts at byte `base` -/
def slotsOf (base : Int) (c : Col) : List Slot :=
  (List.range (copies c.items)).map (fun (i : Nat) => ⟨c.name, c.start, base + (c.start - 1) + i * c.stride, c.size, c.bytes, c.attrs⟩)

/-- the values of a row, in label order -/
def slots (rowPrefix : Int) (es : List Format.Spec.Entry) : List Slot :=
  es.flatMap (fun e => match e with
    | .col c => slotsOf rowPrefix c
    | .cont _ s b r cs => (List.range (copies r)).flatMap (fun (i : Nat) =>
        cs.flatMap (slotsOf (rowPrefix + (s - 1) + i * b))))

/-- the bytes `n` bytes long from byte `i` on -/
def bytesAt (file : Bytes) (i n : Nat) : Bytes := (file.drop i).take n

/-- the names of the columns of the output: see C27 -/
def columnNames (rowPrefix : Int) (es : List Format.Spec.Entry) : List Str :=
  reindexNames ((slots rowPrefix es).map (·.name)) ((slots rowPrefix es).map (fun s => intStr s.start))

/-- A table whose values can be placed: a regular table with columns `first :: rest` that get names which do not contain
PLACEHOLDER. -/
structure Laid (b : Block) (first : Col) (rest : List Format.Spec.Entry) : Prop where
  regular : Regular b.tableName first rest
  defs : b.defs = (Entry.col first :: rest).map Entry.toDef
  table : ∀ t, b.tableName = some t → ¬ c!"PLACEHOLDER" <:+: t
  plain : ∀ n ∈ columnNames (b.rowPrefix.getD 0) (.col first :: rest), ¬ c!"PLACEHOLDER" <:+: n
  offsets : ∀ s ∈ slots (b.rowPrefix.getD 0) (.col first :: rest), 0 ≤ s.off

/-- … and a binary one: its columns are not of ASCII types, and get different names. Columns of IBM and VAX reals have no
ITEMS, and there are rows to read if there are such columns. -/
structure Placed (b : Block) (first : Col) (rest : List Format.Spec.Entry) : Prop extends Laid b first rest where
  binary : ¬ c!"SPREADSHEET" <:+: b.name ∧ ¬ c!"ASCII" <:+: b.name ∧ b.interchange ≠ some c!"ASCII"
  types : ∀ s ∈ slots (b.rowPrefix.getD 0) (.col first :: rest), ¬ c!"ASCII" <:+: s.attrs.dataType ∧
    (Native s.attrs.dataType ∨ s.total = s.size ∧ 0 < b.rows.getD 1) ∧ ∃ d, Means (underscored s.attrs.dataType) s.size d
  names : (columnNames (b.rowPrefix.getD 0) (.col first :: rest)).Nodup

/-- The records have `L` bytes: prefix, row and suffix; the values lie within the row; the last column has no ITEMS; and
either there is no row prefix, or the last column ends with the row and there is no row suffix. -/
structure Binary (b : Block) (first : Col) (rest : List Format.Spec.Entry) (L : Nat) : Prop extends Placed b first rest where
  size : 0 < L ∧ ∃ n, b.rowBytes = some n ∧ 0 ≤ b.rowPrefix.getD 0 ∧ 0 ≤ b.rowSuffix.getD 0 ∧
    L = b.rowPrefix.getD 0 + n + b.rowSuffix.getD 0 ∧
    (∀ s ∈ slots (b.rowPrefix.getD 0) (.col first :: rest), s.off + s.size ≤ b.rowPrefix.getD 0 + n) ∧
    ∃ before last, Entry.col first :: rest = before ++ [Entry.col last] ∧ last.itemBytes = none ∧
      (b.rowPrefix.getD 0 = 0 ∨ (b.rowSuffix.getD 0 = 0 ∧ last.start - 1 + last.bytes = n))

/-- A column shows these values. -/
def Shows : Column → List Value → Prop
  | .ints _ vs, out => out = vs.map .int
  | .floats _ vs, out => out = vs.map (fun v => match v with | some x => .real x | none => .notFinite)
  | .bytes vs, out => out = vs.map .bytes
  | .bools vs, out => out = vs.map .bool
  | .texts vs, out => out = vs.map .text

/-! ### scaling -/

/-- the amount of a value that is a number -/
inductive Amount : Value → ℚ → Prop
  | int {n : Int} : Amount (.int n) n
  | real {x : ℚ} : Amount (.real x) x

/-- SCALING_FACTOR, 1 if there is none -/
def factor (a : Attrs) : ℚ := match a.scale with | some n => n.val | none => 1
/-- OFFSET, 0 if there is none -/
def shift (a : Attrs) : ℚ := match a.offset with | some n => n.val | none => 0

/-- what becomes of a stored value -/
inductive Scaled (a : Attrs) : Value → Value → Prop
  | plain {v : Value} : a.scale = none → a.offset = none → Scaled a v v
  | number {v w : Value} {x : ℚ} : (a.scale ≠ none ∨ a.offset ≠ none) → Amount v x → Amount w (x * factor a + shift a) → Scaled a v w
  | notFinite : Scaled a .notFinite .notFinite

/-- A format holds the factor, the offset, and the results for `x`. -/
def ExactIn (F : Float.Format) (a : Attrs) (x : ℚ) : Prop :=
  Float.Rep F (x * factor a) ∧ Float.Rep F (x * factor a + shift a)

/-- an integer dtype holds `x` -/
def InRange (t : NumPy.IntType) (x : ℚ) : Prop := (NumPy.lo t : ℚ) ≤ x ∧ x ≤ NumPy.hi t

/-- Scaling is exact for a column of a dtype: the format it is done in holds factor and offset and, for every amount `x`
of the column, the results. Integer columns are scaled in float64, or, as far as factor and offset are integers, in the
dtype of the column. -/
inductive ExactFor (a : Attrs) (xs : ℚ → Prop) : Dtype → Prop
  | single {o : Order} : Float.Rep Float.single (factor a) → Float.Rep Float.single (shift a) →
      (∀ x, xs x → ExactIn Float.single a x) → ExactFor a xs ⟨some o, .float, 4⟩
  | double {o : Order} : Float.Rep Float.double (factor a) → Float.Rep Float.double (shift a) →
      (∀ x, xs x → ExactIn Float.double a x) → ExactFor a xs ⟨some o, .float, 8⟩
  | int {o : Order} {k : Datatypes.Kind} {n : Nat} {t : NumPy.IntType} : (k = .int ∧ t = ⟨true, 8 * n⟩ ∨ k = .uint ∧ t = ⟨false, 8 * n⟩) →
      0 < n → Float.Rep Float.double (factor a) → Float.Rep Float.double (shift a) →
      (∀ x, xs x → Float.Rep Float.double x ∧ ExactIn Float.double a x) →
      (∀ i, a.scale = some (.int i) → InRange t i ∧ ∀ x, xs x → InRange t (x * factor a)) →
      (∀ i, a.offset = some (.int i) → InRange t i ∧ ∀ x, xs x → InRange t (x * factor a + shift a)) →
      ExactFor a xs ⟨some o, k, n⟩

end Verif.Table.Spec
