/-
Model of `pdr/bit_handling.py` (bit columns of binary tables), with the special cases of
`pdr/formats/checkers.py` 766-777 and `pdr/formats/juno.py` 34-59.
-/
import Verif.Model.Trim

namespace Verif.Bits
open Verif.Py

/-- numpy byte orders `>` and `<` -/
inductive Order | big | little
  deriving DecidableEq

/-! ### bytes to bit strings -/

/-- The loop of bit_handling.py 72-78: word widths (in bytes), widest first. `lengths[-1]` is `2 ^ k`,
`lengths.pop()` is the step to `k - 1`. -/
def factorLoop (k remaining : Nat) : List Nat :=
  if remaining = 0 then []
  else if remaining < 2 ^ k then
    match k with
    | 0 => []                       -- unreachable: remaining ≥ 1 = 2 ^ 0
    | k + 1 => factorLoop k remaining
  else 2 ^ k :: factorLoop k (remaining - 2 ^ k)
termination_by (k, remaining)
decreasing_by
  · simp_wf; exact Prod.Lex.left _ _ (by omega)
  · simp_wf; apply Prod.Lex.right; have := Nat.two_pow_pos k; omega

/-- bit_handling.py 57-79 `factor_to_dtype`: the widths of the unsigned integers the field is cut
into. (Field names and byte order are carried separately.) -/
def factor (fieldLength : Nat) : List Nat :=
  if fieldLength = 1 ∨ fieldLength = 2 ∨ fieldLength = 4 ∨ fieldLength = 8 then [fieldLength]
  else factorLoop 3 fieldLength

/-- numpy's reading of one unsigned integer from its bytes -/
def wordValue (o : Order) (bs : Bytes) : Nat :=
  match o with
  | .big => bs.foldl (fun acc b => acc * 256 + b.toNat) 0
  | .little => bs.foldr (fun b acc => acc * 256 + b.toNat) 0

/-- `bin(n)` without its `0b` (bit_handling.py 96-104) -/
def binStr (n : Nat) : Str := Nat.toDigits 2 n

/-- `str.zfill(width)` on a string of digits -/
def zfill (width : Nat) (s : Str) : Str := List.replicate (width - s.length) '0' ++ s

/-- one record: the words' bit strings, added up (bit_handling.py 94-107) -/
def recordBits (o : Order) : List Nat → Bytes → Str
  | [], _ => []
  | w :: ws, bs => zfill (w * 8) (binStr (wordValue o (bs.take w))) ++ recordBits o ws (bs.drop w)

/-- `np.frombuffer(buf, dtype)` with `dtype.itemsize = L > 0`: `n` records of `L` bytes -/
def records (L : Nat) : Nat → Bytes → List Bytes
  | 0, _ => []
  | n + 1, bs => bs.take L :: records L n (bs.drop L)

/-- bit_handling.py 82-108 `convert_byte_column_to_bits`: the column as a list of byte strings. -/
def convertColumn (o : Order) (rows : List Bytes) : Except PyErr (List Str) :=
  match rows with
  | [] => .error .indexError                        -- `byte_column.iloc[0]`
  | r0 :: _ =>
    let L := r0.length
    let buf := rows.flatten
    if L = 0 then .error .valueError                -- itemsize of an empty dtype is zero
    else if buf.length % L ≠ 0 then .error .valueError
    else .ok ((records L (buf.length / L) buf).map (recordBits o (factor L)))

/-! ### bit strings to fields -/

/-- Python index clamping for a slice bound on a sequence of length `n` -/
def clampIx (n : Nat) (i : Int) : Nat :=
  if i < 0 then (i + n).toNat else min i.toNat n

/-- `seq[start:end]` -/
def pySlice {α : Type} (s : List α) (start stop : Int) : List α :=
  (s.take (clampIx s.length stop)).drop (clampIx s.length start)

/-- bit_handling.py 140-155 `split_bits` (`zip` stops at the shorter list) -/
def splitBits {α : Type} (s : List α) (starts sizes : List Int) : List (List α) :=
  (starts.zip (starts.zipWith (· + ·) sizes)).map (fun p => pySlice s p.1 p.2)

/-- the subtraction `val - 1 for val in ...` of bit_handling.py 124-126; `None - 1` is a TypeError -/
def zeroIndex : List (Option Int) → Except PyErr (List Int)
  | [] => .ok []
  | none :: _ => .error .typeError
  | some v :: vs =>
    match zeroIndex vs with
    | .error e => .error e
    | .ok r => .ok ((v - 1) :: r)

/-- `start + size` needs numbers too -/
def allSome : List (Option Int) → Except PyErr (List Int)
  | [] => .ok []
  | none :: _ => .error .typeError
  | some v :: vs =>
    match allSome vs with
    | .error e => .error e
    | .ok r => .ok (v :: r)

/-- bit_handling.py 112-136 `splice_bit_string` for one bit string column -/
def spliceColumn (starts sizes : List (Option Int)) (col : List Str) : Except PyErr (List (List Str)) :=
  match zeroIndex starts with
  | .error e => .error e
  | .ok st =>
    match allSome sizes with
    | .error e => .error e
    | .ok sz => .ok (col.map (fun s => splitBits s st sz))

/-- A parsed BIT_COLUMN definition: the keys the code reads (`none` when absent). -/
structure BitDef where
  name : Option Str := none
  items : Option Int := none
  itemBits : Option Int := none
  startBit : Option Int := none
  bits : Option Int := none
  deriving DecidableEq

/-- The BIT_COLUMNs of a column: their definitions, the BIT_DATA_TYPE of the first, and, once
`get_bit_start_and_size` has added them, `start_bit_list` and `bit_size_list`. -/
structure BitObj where
  defs : List BitDef
  bitType : Option Str := none
  lists : Option (List (Option Int) × List (Option Int)) := none
  deriving DecidableEq

/-- the loop over items of bit_handling.py 204-211; `range` of a negative number is empty -/
def itemStarts (first itemBits : Int) : Nat → Nat → List Int
  | _, 0 => []
  | i, n + 1 => (first + i * itemBits) :: itemStarts first itemBits (i + 1) n

/-- bit_handling.py 202-216: starts and sizes in label order -/
def bitFields : List BitDef → Except PyErr (List (Option Int × Option Int))
  | [] => .ok []
  | d :: ds =>
    let here : Except PyErr (List (Option Int × Option Int)) :=
      match d.items with
      | some items =>
        if items ≠ 0 then
          if items < 0 then .ok []
          else match d.startBit, d.itemBits with
            | some s, some b => .ok ((itemStarts s b 0 items.toNat).map (fun x => (some x, some b)))
            | _, _ => .error .typeError          -- arithmetic on None
        else .ok [(d.startBit, d.bits)]
      | none => .ok [(d.startBit, d.bits)]
    match here with
    | .error e => .error e
    | .ok h => match bitFields ds with
      | .error e => .error e
      | .ok r => .ok (h ++ r)

/-- `x[-1] = v` -/
def setLast {α : Type} (l : List α) (v : α) : List α := l.dropLast ++ (if l.isEmpty then [] else [v])

/-- juno.py 34-59 `bit_start_find_and_fix` through checkers.py 766-777; note `in` is a substring test,
so it also fires for an empty instrument name. -/
def specialStarts (instrument : Str) (defs : List BitDef) (starts : List (Option Int)) :
    List (Option Int) :=
  if contains c!"JOVIAN INFRARED AURORAL MAPPER" instrument then
    match defs.getLast? with
    | some d => if d.name = some c!"NADIR_OFFSET_SIGN" then setLast starts (some 16) else starts
    | none => starts                               -- not reached: `getall` raises on no BIT_COLUMN
  else starts

/-- bit_handling.py 190-225 `get_bit_start_and_size`: start and size lists -/
def bitStartAndSize (instrument : Str) (defs : List BitDef) :
    Except PyErr (List (Option Int) × List (Option Int)) :=
  match defs with
  | [] => .error .keyError
  | _ =>
    match bitFields defs with
    | .error e => .error e
    | .ok fs => .ok (specialStarts instrument defs (fs.map (·.1)), fs.map (·.2))

end Verif.Bits
