/-
Model of table format definitions: expanding a TABLE definition into fields (`pdr/loaders/queries.py`
667-843, `pdr/utils.py` 117-148), numbering repeated names (`pdr/pd_utils.py` 36-53,
`pdr/loaders/handlers.py` 164-176 and 292-318) and computing byte offsets (`pdr/pd_utils.py` 56-154,
195-204).
-/
import Verif.Model.Scaling
import Verif.Model.Bits

namespace Verif.Format
open Verif.Py

/-! ### fields -/

/-- What the label says about the values of a column: DATA_TYPE, SCALING_FACTOR, OFFSET and BIT_COLUMNs -/
structure Attrs where
  dataType : Str := []
  scale : Option Scaling.Num := none
  offset : Option Scaling.Num := none
  bits : Option Bits.BitObj := none
  deriving DecidableEq

/-- the DATA_TYPE of the pseudo-fields -/
def voidType : Str := c!"VOID"

/-- A field of a format definition: a dictionary with these keys. `startByte`, `bytes`: as in the label.
`placeholder` marks the pseudo-fields pdr adds (in the code: names starting with PLACEHOLDER). -/
structure Fld where
  name : Str
  startByte : Int
  bytes : Nat
  itemBytes : Option Nat := none
  itemOffset : Option Nat := none
  blockName : Option Str := none
  blockReps : Nat := 1
  blockBytes : Option Nat := none
  axisItems : Option Nat := none
  placeholder : Bool := false
  attrs : Attrs := {}
  deriving DecidableEq

/-- An entry of a TABLE, CONTAINER or COLLECTION definition. `column` stands for COLUMN, FIELD, ELEMENT
and arrays without subobject; `container` for CONTAINER and COLLECTION; `array` for an ARRAY with a
subobject; `other` for keys that do not describe structure. Bit columns are carried along in the attributes (see
`Model/BitTable.lean`). Simplification: `^STRUCTURE` inside columns is left out. -/
inductive Def where
  | column (name : Str) (start : Int) (bytes : Nat) (items itemBytes itemOffset : Option Nat) (attrs : Attrs)
  | container (name : Str) (start : Int) (bytes : Option Nat) (reps : Option Nat) (children : List Def)
  | array (name : Str) (start : Int) (bytes : Option Nat) (axisItems : Option Nat) (children : List Def)
  | other

/-- `block_info` (queries.py 716-720) -/
structure Info where
  name : Option Str
  reps : Nat
  bytes : Option Nat

/-- `append_repeated_object` (utils.py 117-148) for a list of fields: counts below 1 are treated as 1 -/
def appendRepeated {α : Type} (obj fields : List α) (n : Nat) : List α :=
  if 1 < n then fields ++ (List.replicate n obj).flatten else fields ++ obj

/-- the loop variables of `read_format_block` (queries.py 723) -/
structure St where
  fields : List Fld := []
  needs : Bool := false      -- `needs_placeholder`
  add : Bool := false        -- `add_placeholder`, kept from one entry to the next
  reps : Option Nat := none  -- kept from one entry to the next

/-- `f"PLACEHOLDER_{...}"` -/
def placeholderName (s : Str) : Str := c!"PLACEHOLDER_" ++ s

/-- queries.py 667-679 `create_placeholder_field`; `str(None)` is `None` -/
def placeholderField (info : Info) (name : Str) (start : Int) (reps : Nat) (bytes : Option Nat)
    (axisItems : Option Nat) : Fld where
  name := placeholderName name
  startByte := start
  bytes := 0
  blockName := some (placeholderName (info.name.getD c!"None"))
  blockReps := reps
  blockBytes := bytes
  axisItems := axisItems
  placeholder := true
  attrs := { dataType := voidType }

/-- queries.py 785-790: append what an entry gave -/
def appendObj (obj : List Fld) (fields : List Fld) (reps : Option Nat) : List Fld :=
  match reps with
  | some n => appendRepeated obj fields n
  | none => fields ++ obj

mutual
/-- queries.py 724-790: one entry -/
def readEntry (info : Info) : Def → St → St
  | .column n s b items ib io a, st =>
    let obj : Fld := {
      name := n, startByte := s, bytes := b, itemBytes := ib, itemOffset := io,
      blockName := info.name, blockReps := info.reps, blockBytes := info.bytes,
      attrs := a }
    let fields := if st.add then st.fields ++ [placeholderField info n s 1 (some b) none] else st.fields
    { st with reps := items, fields := appendObj [obj] fields items }
  | .container n s b r cs, st =>
    let sub := readEntries ⟨some n, r.getD 1, b⟩ cs {}
    let fields := if sub.needs then st.fields ++ [placeholderField info n s (r.getD 1) b none] else st.fields
    { needs := true, add := sub.needs, reps := r, fields := appendObj sub.fields fields r }
  | .array n s b ax cs, st =>
    let sub := readEntries ⟨some n, 1, b⟩ cs {}
    let fields := st.fields ++ [placeholderField info n s 1 b ax]
    { needs := true, add := true, reps := st.reps, fields := appendObj sub.fields fields st.reps }
  | .other, st => st
/-- queries.py 724-790: the loop over the entries -/
def readEntries (info : Info) : List Def → St → St
  | [], st => st
  | d :: ds, st => readEntries info ds (readEntry info d st)
end

/-- queries.py 695-795 `read_format_block` on a definition without `^STRUCTURE` pointers.
Simplification: 792-794 (a top-level CONTAINER object) is left out. -/
def readFormatBlock (name : Option Str) (reps : Option Nat) (bytes : Option Nat) (children : List Def) :
    List Fld :=
  (readEntries ⟨name, reps.getD 1, bytes⟩ children {}).fields

/-! ### format files -/

/-- queries.py 816-843 `inject_format_files`: every pointer entry is replaced by the contents of the file
it names. `load` is `load_format_file` (its failures are not modelled), already unwrapped if it is a
single TABLE; `isPtr` recognises the pointer and gives the file name. -/
def inject {ε φ : Type} (isPtr : ε → Option φ) (load : φ → List ε) (block : List ε) : List ε :=
  block.flatMap (fun e => match isPtr e with | some f => load f | none => [e])

/-- queries.py 721-722: `while any(...): format_block = inject_format_files(...)`. `none`: still looping
after `fuel` rounds. -/
def injectAll {ε φ : Type} (isPtr : ε → Option φ) (load : φ → List ε) : Nat → List ε → Option (List ε)
  | 0, block => if block.any (fun e => (isPtr e).isSome) then none else some block
  | fuel + 1, block =>
    if block.any (fun e => (isPtr e).isSome) then injectAll isPtr load fuel (inject isPtr load block)
    else some block

/-! ### unique names -/

/-- number of earlier occurrences: the position of an element in its group -/
def occurrence (names : List Str) (i : Nat) : Nat := (names.take i).count (names.getD i [])

/-- `f"{name}_{ix}"` -/
def numbered (name : Str) (ix : Nat) : Str := name ++ c!"_" ++ natStr ix

/-- pd_utils.py 36-53 `reindex_df_values` on the NAME column: names in groups of more than one get their
position in the group; RESERVED also gets the first START_BYTE of its group. -/
def reindexNames (names : List Str) (starts : List Str) : List Str :=
  (List.range names.length).map (fun i =>
    let n := names.getD i []
    if names.count n ≤ 1 then n
    else
      let base := if n = c!"RESERVED" then c!"RESERVED_" ++ starts.getD (names.idxOf n) [] else n
      numbered base (occurrence names i))

/-- handlers.py 164-176 `reindex_dupe_names` and 308-318 (HDU names): the same without the RESERVED rule.
(308-318 also puts the HDUs of one name next to each other.) -/
def reindexDupes (names : List Str) : List Str :=
  (List.range names.length).map (fun i =>
    let n := names.getD i []
    if names.count n ≤ 1 then n else numbered n (occurrence names i))

/-! ### byte offsets -/

/-- A row of `fmtdef` during `compute_offsets`: a field and its SB_OFFSET. -/
structure Row where
  fld : Fld
  sb : Int

/-- pd_utils.py 87-89 -/
def initialRows (fields : List Fld) (rowPrefix : Option Int) : List Row :=
  fields.map (fun f => ⟨f, f.startByte - 1 + rowPrefix.getD 0⟩)

/-- `Series.unique()` -/
def uniq {α : Type} [DecidableEq α] : List α → List α
  | [] => []
  | x :: xs => x :: (uniq xs).filter (· ≠ x)

/-- pd_utils.py 90-92 -/
def blockNames (rows : List Row) : List (Option Str) :=
  uniq ((rows.filter (fun r => r.fld.name ≠ c!"PLACEHOLDER_0")).map (·.fld.blockName))

/-- `more_itertools.divide(n, ...)`: which of `n` parts the `k`-th of `len` elements falls in -/
def chunkOf (n len k : Nat) : Nat :=
  let q := len / n
  let r := len % n
  if k < r * (q + 1) then k / (q + 1) else r + (k - r * (q + 1)) / q

/-- add `f k` to the SB_OFFSET of the `k`-th row of the block -/
def shiftBlock (bn : Str) (f : Nat → Int) : List Row → Nat → List Row
  | [], _ => []
  | r :: rs, k =>
    if r.fld.blockName = some bn then { r with sb := r.sb + f k } :: shiftBlock bn f rs (k + 1)
    else r :: shiftBlock bn f rs k

/-- multiply BLOCK_REPETITIONS of the rows of the block -/
def scaleReps (bn : Str) (m : Nat) (rows : List Row) : List Row :=
  rows.map (fun r => if r.fld.blockName = some bn then
    { r with fld := { r.fld with blockReps := r.fld.blockReps * m } } else r)

/-- pd_utils.py 98-101: the row just before the block, or the placeholder named like the block.
Simplification: a placeholder block whose name is not that of exactly one row is an error. -/
def priorRow (bn : Str) (rows : List Row) : Except PyErr Row :=
  if contains bn c!"PLACEHOLDER" then
    match rows.filter (fun r => r.fld.name = bn) with
    | [r] => .ok r
    | _ => .error .valueError
  else
    match rows.findIdx? (fun r => r.fld.blockName = some bn) with
    | some (i + 1) => match rows[i]? with
      | some r => .ok r
      | none => .error .keyError
    | _ => .error .keyError

/-- pd_utils.py 94-125: one round of the loop over blocks -/
def offsetBlock (rowPrefix : Option Int) (bn : Str) (rows : List Row) : Except PyErr (List Row) :=
  match priorRow bn rows with
  | .error e => .error e
  | .ok prior =>
    match rows.find? (fun r => r.fld.blockName = some bn) with
    | none => .error .indexError
    | some first =>
      let len := rows.countP (fun r => r.fld.blockName = some bn)
      let rows1 := shiftBlock bn (fun _ => prior.sb + prior.fld.bytes - rowPrefix.getD 0) rows 0
      let ph := contains bn c!"PLACEHOLDER"
      let reps := prior.fld.blockReps
      let rows2 := if 1 < reps ∧ ph then scaleReps bn reps rows1 else rows1
      let count := if 1 < reps ∧ ¬ ph then first.fld.blockReps * reps else first.fld.blockReps
      if count = 1 then .ok rows2
      else if count = 0 then .error .valueError
      else match first.fld.blockBytes with
        | none => .error .typeError
        | some size => .ok (shiftBlock bn (fun k => (chunkOf count len k : Int) * size) rows2 0)

/-- pd_utils.py 94-96: the loop over all blocks but the first, skipping two names -/
def offsetBlocks (rowPrefix : Option Int) (first : Option Str) :
    List (Option Str) → List Row → Except PyErr (List Row)
  | [], rows => .ok rows
  | none :: _, _ => .error .typeError        -- `"PLACEHOLDER" in None`
  | some bn :: bns, rows =>
    if bn = c!"PLACEHOLDER_None" ∨ bn = placeholderName (first.getD c!"None") then
      offsetBlocks rowPrefix first bns rows
    else match offsetBlock rowPrefix bn rows with
      | .error e => .error e
      | .ok rows => offsetBlocks rowPrefix first bns rows

/-- pd_utils.py 56-71 `_apply_item_offsets`, per row -/
def itemSize (f : Fld) : Option Nat :=
  match f.itemOffset with
  | some o => some o
  | none => f.itemBytes

/-- `value_counts().sort_index()` -/
def countSorted : List Int → List (Int × Nat)
  | [] => []
  | x :: xs =>
    let rec insert (x : Int) : List (Int × Nat) → List (Int × Nat)
      | [] => [(x, 1)]
      | (y, n) :: rest => if x < y then (x, 1) :: (y, n) :: rest
                          else if x = y then (y, n + 1) :: rest
                          else (y, n) :: insert x rest
    insert x (countSorted xs)

/-- pd_utils.py 131-135: the new offsets of the rows with items, in row order -/
def itemOffsets : List (Int × Nat) → List Nat → List Int
  | [], _ => []
  | (off, n) :: rest, sizes =>
    (List.range n).map (fun i => (i * sizes.headD 0 : Nat) + off) ++ itemOffsets rest (sizes.drop n)

/-- put new offsets into the rows with items -/
def assignItems : List Row → List Int → List Row
  | [], _ => []
  | r :: rs, offs =>
    if (itemSize r.fld).isSome then
      match offs with
      | o :: os => { r with sb := o } :: assignItems rs os
      | [] => r :: assignItems rs []
    else r :: assignItems rs offs

/-- pd_utils.py 127-136. The test is for the column ITEM_BYTES, that is for any row having it. -/
def applyItems (rows : List Row) : Except PyErr (List Row) :=
  if rows.any (fun r => r.fld.itemBytes.isSome) then
    if rows.any (fun r => match r.fld.itemOffset, r.fld.itemBytes with
        | some o, some b => o < b
        | _, _ => false) then .error .valueError
    else
      let group := rows.filter (fun r => (itemSize r.fld).isSome)
      .ok (assignItems rows (itemOffsets (countSorted (group.map (·.sb))) (group.filterMap (fun r => itemSize r.fld))))
  else .ok rows

/-- pd_utils.py 137-153: the pseudo-field for unused bytes at the end of a row. -/
def padRow (rows : List Row) (rowBytes rowSuffix : Option Int) : Except PyErr (List Row) :=
  match rows.getLast? with
  | none => .error .indexError
  | some last =>
    let endByte := last.sb + last.fld.bytes
    let pad := (match rowBytes with | some n => n - endByte | none => 0) + rowSuffix.getD 0
    if 0 < pad then
      .ok (rows ++ [⟨{
        name := c!"PLACEHOLDER_0", startByte := endByte, bytes := pad.toNat, placeholder := true,
        attrs := { dataType := voidType } }, endByte⟩])
    else .ok rows

/-- pd_utils.py 74-154 `compute_offsets` -/
def computeOffsets (fields : List Fld) (rowPrefix rowBytes rowSuffix : Option Int) :
    Except PyErr (List Row) :=
  let rows := initialRows fields rowPrefix
  let blocks : Except PyErr (List Row) := match blockNames rows with
    | [] => .ok rows
    | b :: bs => offsetBlocks rowPrefix b bs rows
  match blocks with
  | .error e => .error e
  | .ok rows => match applyItems rows with
    | .error e => .error e
    | .ok rows => padRow rows rowBytes rowSuffix

/-- the byte range of a row's value: ITEM_BYTES if given, else BYTES (pd_utils.py 173, table.py 201-207) -/
def width (f : Fld) : Nat := f.itemBytes.getD f.bytes

/-- pd_utils.py 195-204 `fmtdef_to_dtype`: size of the record, as numpy computes it from offsets and
formats (the furthest end of a field) -/
def recordLength (rows : List Row) : Int :=
  rows.foldr (fun r m => max (r.sb + width r.fld) m) 0

end Verif.Format
