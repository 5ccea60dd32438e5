/-
Model of `pdr/formats/mgs_moc.py`: MGS MOC standard data products (`.imq`), predictive and raw. Bytes are natural numbers
below 256.
-/
import Verif.Model.Py
import Verif.Model.MocTables

namespace Verif.Moc
open Verif Verif.Py

/-! ### Huffman trees -/

/-- mgs_moc.py 621-625 `HuffmanNode`; `none` is Python's `None` -/
inductive Node
  | none
  | node (value : Nat) (zero one : Node)
deriving DecidableEq

/-- mgs_moc.py 628-653 `ht_insert` -/
def htInsert : Node → Nat → Nat → Nat → Node
  | .none, value, _, 0 => .node value .none .none
  | .node _ z o, value, _, 0 => .node value z o
  | .none, value, code, n + 1 =>
    if code % 2 = 0 then .node 0 (htInsert .none value (code / 2) n) .none
    else .node 0 .none (htInsert .none value (code / 2) n)
  | .node v z o, value, code, n + 1 =>
    if code % 2 = 0 then .node v (htInsert z value (code / 2) n) o
    else .node v z (htInsert o value (code / 2) n)

/-- one line of the decoding tables: `flags` (its two bits as truth values), `zero` and `one` -/
structure Entry where
  more0 : Bool := false
  more1 : Bool := false
  zero : Nat := 0
  one : Nat := 0

/-- the three tables `flags`, `zero`, `one` (bytearrays of 256 bytes) -/
abbrev Tables := Nat → Entry

/-- assignments to line `i` of the tables, the last of them a byte `v`: IndexError beyond the 256 lines, ValueError if
`v` is not a byte -/
def store (t : Tables) (i v : Nat) (f : Entry → Entry) : Except PyErr Tables :=
  if i < 256 then
    if v < 256 then .ok (fun j => if j = i then f (t i) else t j) else .error .valueError
  else .error .indexError

/-- `node is not None` -/
def Node.present : Node → Bool
  | .none => false
  | .node _ _ _ => true

/-- `node.zero is None and node.one is None`, for a node that is not None -/
def Node.leaf : Node → Bool
  | .node _ .none .none => true
  | _ => false

/-- `node.value` -/
def Node.value : Node → Nat
  | .none => 0
  | .node v _ _ => v

/-- mgs_moc.py 656-688 `ht_tablefy`: the tables and the last line used -/
def htTablefy : Node → Tables → Nat → Except PyErr (Tables × Nat)
  | .none, t, i => .ok (t, i)
  | .node _ z o, t, i =>
    Except.bind
      (if z.present then
        if z.leaf then (store t i z.value fun e => { e with more0 := false, zero := z.value }).map fun t' => (t', i)
        else (store t i (i + 1) fun e => { e with more0 := true, zero := i + 1 }).bind fun t' => htTablefy z t' (i + 1)
      else .ok (t, i))
      fun r =>
        if o.present then
          if o.leaf then (store r.1 i o.value fun e => { e with more1 := false, one := o.value }).map fun t' => (t', r.2)
          else (store r.1 i (r.2 + 1) fun e => { e with more1 := true, one := r.2 + 1 }).bind fun t' => htTablefy o t' (r.2 + 1)
        else .ok r

/-- insert entries (value, code, length) one after the other, but not those with the value of the entry before -/
def insertRuns : Node → Option Nat → List (Nat × Nat × Nat) → Node
  | tree, _, [] => tree
  | tree, prev, e :: rest =>
    insertRuns (if prev = some e.1 then tree else htInsert tree e.1 e.2.1 e.2.2) (some e.1) rest

/-- mgs_moc.py 691-718 `ht_tree_gen`, for one set of tables: entries 0 to 127, then 255 down to 128. (The code has indices
where this goes through the lists; they all have 256 elements.) -/
def htTreeGen (bits len requant : List Nat) : Node :=
  let entries := requant.zip (bits.zip len)
  insertRuns (insertRuns .none none (entries.take 128)) none (entries.drop 128).reverse

/-- mgs_moc.py 730-739: the tables of code bits, lengths and requantisation by number -/
def codeTables : List (List Nat × List Nat × List Nat) :=
  [(code0Bits, code0Len, codeIdentRequant), (code1Bits, code1Len, codeIdentRequant),
   (code2Bits, code2Len, codeIdentRequant), (code3Bits, code3Len, codeIdentRequant),
   (code4Bits, code4Len, codeIdentRequant), (code5Bits, code5Len, codeIdentRequant),
   (code6Bits, code6Len, codeIdentRequant), (code7Bits, code7Len, code7Requant)]

/-- mgs_moc.py 721-745 `make_huffman_tree` -/
def makeHuffmanTree (id : Nat) : Except PyErr Tables :=
  match codeTables[id]? with
  | none => .error .indexError
  | some (b, l, r) => (htTablefy (htTreeGen b l r) (fun _ => {}) 0).map (·.1)

/-! ### reading bits -/

/-- mgs_moc.py 258-266 `BitStruct`, as far as predictive decompression uses it -/
structure BitPos where
  queue : Nat
  count : Nat
  output : Nat
deriving DecidableEq

/-- mgs_moc.py 500-521: to the next bit -/
def advance (data : List Nat) (b : BitPos) : BitPos :=
  if 7 < b.count + 1 then ⟨data.getD (b.output + 1) 0, 0, b.output + 1⟩
  else ⟨b.queue / 2, b.count + 1, b.output⟩

/-- the loop of `next_value`, at line `index` of the tables -/
def walk (t : Tables) (data : List Nat) : Nat → Nat → BitPos → Except PyErr (Nat × BitPos)
  | 0, _, _ => .error .recursionError
  | fuel + 1, index, b =>
    if b.queue % 2 = 0 then
      if (t index).more0 then walk t data fuel (t index).zero (advance data b) else .ok ((t index).zero, advance data b)
    else
      if (t index).more1 then walk t data fuel (t index).one (advance data b) else .ok ((t index).one, advance data b)

/-- mgs_moc.py 467-527 `next_value`. Simplification: more than 256 steps count as a failure here; the code would go on
(no tables made from a tree of the code have such paths, see `nextValue_total`). -/
def nextValue (t : Tables) (data : List Nat) (b : BitPos) : Except PyErr (Nat × BitPos) := walk t data 256 0 b

/-! ### lines -/

/-- mgs_moc.py 530-543 `decomp_none`; `size` pixels -/
def decompNone (t : Tables) (data : List Nat) : Nat → BitPos → Except PyErr (List Nat × BitPos)
  | 0, b => .ok ([], b)
  | n + 1, b =>
    (nextValue t data b).bind fun r =>
      (decompNone t data n r.2).map fun s => (r.1 :: s.1, s.2)

/-- mgs_moc.py 546-560 `decomp_xpred`; `prev` is the pixel before -/
def decompX (t : Tables) (data : List Nat) : Nat → Nat → BitPos → Except PyErr (List Nat × BitPos)
  | 0, _, b => .ok ([], b)
  | n + 1, prev, b =>
    (nextValue t data b).bind fun r =>
      (decompX t data n ((prev + r.1) % 256) r.2).map fun s => ((prev + r.1) % 256 :: s.1, s.2)

/-- mgs_moc.py 563-578 `decomp_ypred`; the line above gives the number of pixels -/
def decompY (t : Tables) (data : List Nat) : List Nat → BitPos → Except PyErr (List Nat × BitPos)
  | [], b => .ok ([], b)
  | above :: rest, b =>
    (nextValue t data b).bind fun r =>
      (decompY t data rest r.2).map fun s => ((r.1 + above) % 256 :: s.1, s.2)

/-- mgs_moc.py 581-603 `decomp_sync`: a line stored as it is after the two bytes of the marker, padded with 0 at the end
of the data -/
def decompSync (data : List Nat) (width : Nat) (b : BitPos) : List Nat × BitPos :=
  let row := (data.drop (b.output + 2)).take width
  let out := b.output + 2 + row.length
  (row ++ List.replicate (width - row.length) 0,
    ⟨if out < data.length then data.getD out 0 else b.queue, 0, out⟩)

/-- mgs_moc.py 402-428 `pred_line_decompressor` for lines without a marker -/
def decompLine (t : Tables) (data : List Nat) (comp width : Nat) (prev : List Nat) (b : BitPos) :
    Except PyErr (List Nat × BitPos) :=
  if comp = 0 then decompNone t data width b
  else if comp = 1 then decompX t data width 0 b
  else if comp = 2 then decompY t data prev b
  else .error .valueError

/-- mgs_moc.py 431-443 `delta_ok`: the 31 differences of neighbours after `offset` are there and at most 64 -/
def deltaOk (data : List Nat) (offset : Nat) : Bool :=
  (List.range 31).all fun k =>
    offset + (k + 1) + 1 < data.length &&
      ((data.getD (offset + (k + 1)) 0 : Int) - (data.getD (offset + (k + 1) + 1) 0 : Int)).natAbs ≤ 64

/-- the 16-bit word, low byte first, at `o` -/
def word (data : List Nat) (o : Nat) : Nat := data.getD o 0 + 256 * data.getD (o + 1) 0

/-- the loop of `find_sync` -/
def findFrom (data : List Nat) : Nat → Nat → Option Nat
  | 0, _ => none
  | remaining + 1, offset =>
    if data.length ≤ offset + 1 then none
    else if word data offset = 0xf0ca ∧ deltaOk data (offset + 2) then some offset
    else findFrom data remaining (offset + 1)

/-- mgs_moc.py 446-464 `find_sync`. (`length` may be negative in the code: then it is below 2 as well.) -/
def findSync (data : List Nat) (length : Nat) : Option Nat :=
  if length < 2 then none else findFrom data (length - 2) 2

/-- what `pred_decode` keeps from line to line -/
structure State where
  prev : List Nat
  bits : BitPos
  last : Nat

/-- mgs_moc.py 347-352: on to the next even byte that was not begun -/
def align (b : BitPos) : BitPos :=
  let o := if b.count ≠ 0 then b.output + 1 else b.output
  ⟨b.queue, 0, if o % 2 = 1 then o + 1 else o⟩

/-- mgs_moc.py 344-375 in `pred_decode`: look for a marker every 128 lines. `none`: decoding ends with a warning.
`length` is the number of pixels of the image. -/
def resync (data : List Nat) (length : Nat) (s : State) : Option State :=
  let b := align s.bits
  if data.length ≤ b.output + 1 then none
  else if word data b.output = 0xf0ca then some { s with bits := b, last := b.output }
  else
    match findSync (data.drop s.last) (length - s.last) with
    | none => none
    | some o => some { s with bits := { b with output := s.last + o } }

/-- the loop of `pred_decode`: the lines from `y` on -/
def decodeLines (t : Tables) (data : List Nat) (comp width length : Nat) : Nat → Nat → State → Except PyErr (List (List Nat))
  | 0, _, _ => .ok []
  | k + 1, y, s =>
    if y % 128 = 0 ∧ comp ≠ 0 then
      match resync data length s with
      | none => .ok []
      | some s' =>
        (decodeLines t data comp width length k (y + 1)
          ⟨(decompSync data width s'.bits).1, (decompSync data width s'.bits).2, s'.last⟩).map
          fun rows => (decompSync data width s'.bits).1 :: rows
    else
      (decompLine t data comp width s.prev s.bits).bind fun r =>
        (decodeLines t data comp width length k (y + 1) ⟨r.1, r.2, s.last⟩).map fun rows => r.1 :: rows

/-! ### headers and files -/

/-- mgs_moc.py 223-244 `MSDPHeader`, the fields that matter here -/
structure Header where
  downLength : Nat
  status : Nat
  downTotal : Nat
  editLength : Nat
  compression : List Nat
  length : Nat

/-- mgs_moc.py 247-248 `make_short` -/
def short (d : List Nat) (o : Nat) : Nat := word d o

/-- mgs_moc.py 251-255 `make_long` -/
def long (d : List Nat) (o : Nat) : Nat :=
  d.getD o 0 + 256 * d.getD (o + 1) 0 + 65536 * d.getD (o + 2) 0 + 16777216 * d.getD (o + 3) 0

/-- mgs_moc.py 224 -/
def headerSize : Nat := 62

/-- mgs_moc.py 226-244 -/
def parseHeader (d : List Nat) : Header :=
  { downLength := short d 6
    status := d.getD 13 0
    downTotal := short d 40
    editLength := d.getD 43 0
    compression := (d.drop 44).take 8
    length := long d 58 }

/-- `h.compression[0] & 3` -/
def Header.pcomp (h : Header) : Nat := h.compression.getD 0 0 % 4

/-- `(h.compression[0] >> 2) & 3` -/
def Header.xcomp (h : Header) : Nat := h.compression.getD 0 0 / 4 % 4

/-- mgs_moc.py 309-399 `pred_decode`: the lines. (The code has them one after the other in one array; their number is the
height it returns.) -/
def predDecode (h : Header) (data : List Nat) (t : Tables) : Except PyErr (List (List Nat)) :=
  let height := h.downTotal * 16
  let width := h.editLength * 16
  decodeLines t data h.pcomp width (width * height) height 0
    ⟨List.replicate width 0, ⟨data.getD 0 0, 0, 0⟩, 0⟩

/-- mgs_moc.py 278-306 `make_pred_image`. As every line has the width of the image, `reshape` gives back the lines. -/
def makePredImage (h : Header) (data : List Nat) : Except PyErr (List (List Nat)) :=
  (makeHuffmanTree (h.compression.getD 1 0 % 16)).bind fun t =>
    (predDecode h data t).bind fun rows =>
      if rows.flatten = [] then .error .ioError else .ok rows

/-- mgs_moc.py 137-212 in `mgs_moc_comp_image_loader`: the loop over fragments from `total` on. `xform` stands for
`decompress_transform_image`, `first` for `first_h`, `frags` for what was collected, `parts` for the images of transform
fragments (`vstack` of parts of different widths would fail; not modelled). The fuel is one more than the number of bytes of the file: every round but the last takes at least 63 of them. -/
def loadFrom (xform : Header → List Nat → Except PyErr (List (List Nat))) (file : List Nat) :
    Nat → Nat → Option Header → List Nat → List (List Nat) → Except PyErr (List (List Nat))
  | 0, _, _, _, _ => .error .recursionError
  | fuel + 1, total, first, frags, parts =>
    let head := (file.drop (total + 2048)).take headerSize
    let finish := fun (first : Option Header) =>
      match first with
      | none => Except.error PyErr.valueError
      | some f => if f.xcomp = 0 then makePredImage f frags else .ok parts
    if head.length < headerSize then finish first
    else
      let h := parseHeader head
      if h.length = 0 then
        match first with
        | none => .error .valueError
        | some f => finish (some f)
      else
        let indat := (file.drop (total + 2048 + headerSize)).take h.length
        let next := total + headerSize + h.length + 1
        let first' := some (first.getD h)
        if h.xcomp ≠ 0 ∧ h.pcomp = 1 then .error .valueError
        else if h.pcomp = 1 ∨ h.xcomp = 0 then
          if h.status / 2 % 2 = 1 then makePredImage h (frags ++ indat)
          else loadFrom xform file fuel next first' (frags ++ indat) parts
        else (xform h indat).bind fun part => loadFrom xform file fuel next first' frags (parts ++ part)

/-- mgs_moc.py 106-212 `mgs_moc_comp_image_loader` -/
def load (xform : Header → List Nat → Except PyErr (List (List Nat))) (file : List Nat) : Except PyErr (List (List Nat)) :=
  loadFrom xform file (file.length + 1) 0 none [] []

end Verif.Moc
