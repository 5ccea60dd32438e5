/-
Model of the MSL (Mastcam, MAHLI, MARDI) EDR reader: `pdr/formats/msl_edr.py` (everything but JPEG
decoding, which is done by pillow).
-/
import Verif.Model.Bits

namespace Verif.Msl
open Verif.Py Verif.Bits

/-- how a call ends: a result, an exception, or never -/
inductive Outcome (α : Type) where
  | ok (a : α)
  | err (e : PyErr)
  | hang

/-! ### header -/

/-- msl_edr.py 22-25 `DATFiletype` -/
inductive Kind where
  | raw | pred | jpeg
  deriving DecidableEq

/-- msl_edr.py 125-140 `Header` (the fields that are used later) -/
structure Header where
  width : Nat
  height : Nat
  depth : Nat
  bands : Nat
  thumbnail : Bool
  kind : Kind
  deriving DecidableEq

/-- msl_edr.py 15 -/
def magic : Nat := 0x1010cc28

/-- word `i` of a header: `struct.unpack(">16I", header)[i]` -/
def word (header : Bytes) (i : Nat) : Nat := wordValue .big ((header.drop (4 * i)).take 4)

/-- msl_edr.py 143-161 `read_header` from `offset` on, with `n` offsets left to try; the 64 bytes of the
header, or none -/
def readHeaderFrom (file : Bytes) (offset : Nat) : Nat → Option Bytes
  | 0 => none
  | n + 1 =>
    let h := (file.drop offset).take 64
    if h.length < 64 then none
    else if word h 15 = magic then some h
    else readHeaderFrom file (offset + 1) n

/-- msl_edr.py 143-161 `read_header` -/
def readHeader (file : Bytes) : Option Bytes := readHeaderFrom file 0 1000

/-- msl_edr.py 176-204: the fields -/
def decodeWords (w0 w5 w8 w9 : Nat) : Header :=
  let width := ((w5 >>> 8) &&& 0xff) * 8
  let height := (w5 &&& 0xff) * 8
  let kind := if w8 &&& 0xff = 0 then (if w8 &&& 0xff00 ≠ 0 then .pred else .raw) else .jpeg
  let wide := decide (kind ≠ .jpeg) && decide (w9 = 255)
  {
    width := if width = 0 then 1648 else width
    height := if height = 0 then 1200 else height
    depth := if wide then 2 else 1
    bands := if kind = .jpeg ∧ w8 &&& 0xff00 ≠ 0 then 3 else 1
    thumbnail := decide ((w0 >>> 24) &&& 8 ≠ 0)
    kind := kind }

/-- msl_edr.py 164-204 `decode_dat_header` -/
def decodeHeader (file : Bytes) : Option Header :=
  (readHeader file).map (fun h => decodeWords (word h 0) (word h 5) (word h 8) (word h 9))

/-! ### raw images -/

/-- msl_edr.py 221-225: swap the bytes of each whole pair -/
def swapPairs : Bytes → Bytes
  | a :: b :: rest => b :: a :: swapPairs rest
  | l => l

/-- msl_edr.py 236-246: the first size (by height, then width) that fits -/
def fitSize (depth height width test1 test2 : Int) : Option (Int × Int) :=
  ((List.range 8).flatMap (fun (i : Nat) => (List.range 8).map (fun (j : Nat) => (height + i, width + j)))).find?
    (fun p => p.1 * p.2 * depth = test1 ∨ p.1 * p.2 * depth = test2)

/-- `np.frombuffer(buf, uint16)` on a little-endian machine; the buffer must have whole elements -/
def words16 : Bytes → Option (List Nat)
  | [] => some []
  | [_] => none
  | a :: b :: rest => (words16 rest).map (fun r => (a.toNat + 256 * b.toNat) :: r)

/-- `np.frombuffer(buf, uint16 or uint8)` (260-263) -/
def elements (depth : Nat) (buf : Bytes) : Option (List Nat) :=
  if depth = 2 then words16 buf else some (buf.map UInt8.toNat)

/-- a finished image: its shape and its elements in C order -/
structure Img where
  shape : List Nat
  pixels : List Nat

/-- msl_edr.py 260-263: to an array of the given shape -/
def toImage (depth : Nat) (buf : Bytes) (shape : List Nat) : Except PyErr Img :=
  match elements depth buf with
  | none => .error .valueError
  | some xs => if xs.length = shape.foldr (· * ·) 1 then .ok ⟨shape, xs⟩ else .error .valueError

/-- msl_edr.py 229-252: height, width and byte count of the image, given the number of bytes read -/
def rawSize (h : Header) (bytesRead : Nat) : Nat × Nat × Nat :=
  if bytesRead ≠ h.width * h.height * h.depth ∧ h.thumbnail = true then
    match fitSize h.depth h.height h.width ((bytesRead : Int) - 32) ((bytesRead : Int) - 56) with
    | some (a, b) => (a.toNat, b.toNat, (a * b * h.depth).toNat)
    | none => (150, 206, 150 * 206)
  else (h.height, h.width, h.width * h.height * h.depth)

/-- msl_edr.py 207-263 `read_raw_image`, without the final axis of length `bands` (1 for raw images). -/
def readRaw (file : Bytes) (h : Header) (maxBytes : Nat) : Except PyErr Img :=
  let raw := (file.drop 64).take maxBytes
  let buf := if h.depth = 2 then swapPairs raw else raw
  let size := rawSize h raw.length
  let buf := buf ++ List.replicate (size.2.2 - raw.length) 0
  toImage h.depth (buf.take size.2.2) [size.1, size.2.1]

/-! ### reading bits -/

/-- msl_edr.py 329-340 `InputBits`: byte and bit position. The cached byte is always the one at `p`, and the
file position always `min (p + 1) length`. -/
structure In where
  p : Nat
  bit : Nat
  deriving DecidableEq

/-- msl_edr.py 343-356 `next_bit`; none is -1, which leaves the position alone -/
def nextBit (file : Bytes) (s : In) : Option (Bool × In) :=
  match file[s.p]? with
  | none => none
  | some b =>
    some ((b.toNat >>> (7 - s.bit)) &&& 1 = 1, if s.bit + 1 = 8 then ⟨s.p + 1, 0⟩ else ⟨s.p, s.bit + 1⟩)

/-- msl_edr.py 359-369 `rewind_bytes` -/
def rewind (s : In) (n : Nat) : In := ⟨s.p - n, 0⟩

/-- msl_edr.py 378-427: the table of flags -/
def flags : List Nat :=
  [3, 3, 3, 1, 3, 1, 1, 3, 2, 2, 0, 1, 1, 3, 1, 0, 2, 1, 1, 0,
   2, 2, 0, 0, 3, 3, 0, 3, 1, 1, 3, 2, 2, 0, 1, 1, 3, 0, 1, 2,
   2, 0, 2, 2, 0, 0, 3, 3, 3, 1, 1, 1, 3, 2, 2, 0, 3, 3, 3, 2,
   3, 3, 0, 0, 3, 0, 0, 3, 3, 3, 0, 0, 3, 0, 0, 3, 3, 0, 0, 3,
   0, 0, 3, 3, 3, 3, 0, 0, 3, 0, 0, 3, 3, 0, 0, 3, 0, 0, 3, 3,
   3, 0, 0, 3, 0, 0, 3, 3, 0, 0, 3, 0, 0, 3, 3, 3, 3, 3, 0, 0,
   3, 0, 0, 3, 3, 0, 0, 3, 0, 0, 3, 3, 3, 0, 0, 3, 0, 0, 3, 3,
   0, 0, 3, 0, 0, 3, 3, 3, 3, 0, 0, 3, 0, 0, 3, 3, 0, 0, 3, 0,
   0, 3, 3, 3, 0, 0, 3, 0, 0, 3, 3, 0, 0, 3, 0, 0, 2, 2, 2, 1,
   1, 3, 3, 3, 3, 3, 0, 0, 3, 0, 0, 3, 3, 0, 0, 3, 0, 0, 3, 3,
   3, 0, 0, 3, 0, 0, 3, 3, 0, 0, 3, 0, 0, 3, 3, 3, 3, 0, 0, 3,
   0, 0, 3, 3, 0, 0, 1, 0, 3, 0, 1, 0, 0, 3, 3, 1, 1, 3, 2, 2,
   0, 1, 1, 3, 0, 3, 0, 3, 2, 0, 0, 2, 2, 0, 0]

/-- msl_edr.py 378-428: left children or values -/
def left : List Nat :=
  [1, 2, 3, 4, 5, 6, 7, 8, 237, 23, 27, 12, 13, 14, 15, 221, 31, 18, 19, 42,
   8, 244, 240, 255, 25, 26, 251, 28, 29, 30, 31, 20, 24, 28, 35, 36, 37, 32, 39, 36,
   40, 170, 9, 243, 239, 2, 47, 48, 49, 50, 51, 52, 53, 21, 231, 29, 57, 58, 59, 33,
   61, 62, 168, 165, 65, 161, 159, 68, 69, 70, 171, 155, 73, 157, 151, 76, 77, 149, 147, 80,
   145, 143, 83, 84, 85, 86, 156, 139, 89, 137, 135, 92, 93, 141, 131, 96, 129, 195, 99, 100,
   101, 125, 197, 104, 121, 119, 107, 108, 117, 200, 111, 113, 111, 114, 115, 116, 117, 118, 109, 134,
   121, 105, 103, 124, 125, 188, 181, 128, 173, 133, 131, 132, 133, 93, 91, 136, 89, 87, 139, 140,
   85, 83, 143, 81, 79, 146, 147, 148, 149, 77, 75, 152, 73, 71, 155, 156, 69, 67, 159, 65,
   63, 162, 163, 164, 61, 59, 167, 57, 55, 170, 171, 53, 51, 174, 49, 47, 6, 10, 242, 180,
   181, 182, 183, 184, 185, 186, 45, 107, 189, 175, 177, 192, 193, 183, 185, 196, 190, 192, 199, 200,
   201, 202, 204, 204, 206, 208, 207, 208, 210, 212, 211, 179, 97, 214, 215, 216, 217, 187, 99, 220,
   193, 100, 223, 224, 115, 122, 227, 127, 229, 37, 231, 215, 253, 234, 235, 236, 237, 238, 18, 22,
   26, 242, 243, 244, 30, 246, 222, 248, 38, 43, 217, 7, 11, 241, 4]

/-- msl_edr.py 378-429: right children or values -/
def right : List Nat :=
  [46, 24, 23, 0, 20, 248, 12, 11, 9, 10, 229, 236, 232, 16, 225, 35, 17, 220, 216, 169,
   21, 22, 16, 1, 45, 27, 5, 42, 247, 13, 34, 32, 33, 228, 235, 25, 38, 224, 223, 40,
   41, 166, 43, 44, 17, 254, 233, 232, 176, 250, 246, 14, 56, 54, 55, 227, 113, 82, 67, 60,
   64, 63, 167, 162, 66, 160, 158, 75, 72, 71, 164, 163, 74, 152, 150, 79, 78, 148, 146, 81,
   144, 142, 98, 91, 88, 87, 154, 138, 90, 136, 153, 95, 94, 132, 130, 97, 194, 196, 106, 103,
   102, 124, 198, 105, 120, 118, 110, 109, 199, 114, 112, 112, 110, 145, 130, 123, 120, 119, 140, 106,
   122, 104, 102, 127, 126, 180, 172, 129, 174, 108, 138, 135, 134, 92, 90, 137, 88, 86, 142, 141,
   84, 82, 144, 80, 78, 161, 154, 151, 150, 76, 74, 153, 72, 70, 158, 157, 68, 66, 160, 64,
   62, 169, 166, 165, 60, 58, 168, 56, 54, 173, 172, 52, 50, 175, 48, 46, 177, 178, 179, 238,
   234, 213, 198, 191, 188, 187, 44, 95, 190, 176, 178, 195, 194, 184, 186, 197, 191, 201, 206, 203,
   202, 203, 205, 205, 207, 209, 210, 209, 211, 94, 212, 182, 96, 228, 222, 219, 218, 189, 98, 221,
   101, 116, 226, 225, 123, 126, 41, 128, 230, 219, 218, 214, 3, 254, 251, 249, 245, 241, 239, 240,
   230, 19, 233, 245, 226, 247, 34, 250, 249, 213, 39, 252, 253, 15, 252]

/-- one step down the tree (msl_edr.py 441-452): the next node or the value found -/
def descend (node : Nat) (bit : Bool) : Nat ⊕ Nat :=
  if bit = false then
    if (flags.getD node 0) &&& 1 ≠ 0 then .inl (left.getD node 0) else .inr (left.getD node 0)
  else
    if (flags.getD node 0) &&& 2 ≠ 0 then .inl (right.getD node 0) else .inr (right.getD node 0)

/-- msl_edr.py 435-452, the loop of `next_value`. It ends with the file at the latest, so `fuel` never runs
out (theorem `walk_fuel`). -/
def walk (file : Bytes) : Nat → Nat → In → Option (Nat × In)
  | 0, _, _ => none
  | fuel + 1, node, s =>
    match nextBit file s with
    | none => none
    | some (b, s') =>
      match descend node b with
      | .inl n => walk file fuel n s'
      | .inr v => some (v, s')

/-- msl_edr.py 435-452 `next_value`; none is -1 -/
def nextValue (file : Bytes) (s : In) : Option (Nat × In) := walk file (8 * file.length + 1) 0 s

/-- msl_edr.py 463-467: `n` bits, the first one into bit `n - 1` of the result -/
def readWord (file : Bytes) : Nat → In → Nat → Option (Nat × In)
  | 0, s, acc => some (acc, s)
  | n + 1, s, acc =>
    match nextBit file s with
    | none => none
    | some (b, s') => readWord file n s' (acc ||| (b.toNat <<< n))

/-- msl_edr.py 32 -/
def predSync : Nat := 0xffff0000

/-- msl_edr.py 455-478 `find_sync`: the position after the sync word, or none. Every round starts one byte
further on, so `fuel` never runs out (theorem `findSync_fuel`). -/
def findSync (file : Bytes) : Nat → In → Option In
  | 0, _ => none
  | fuel + 1, s =>
    match readWord file 32 s 0 with
    | none => none
    | some (w, s') => if w = predSync then some s' else findSync file fuel (rewind s' 3)

/-- msl_edr.py 490-497: `n` values, each added to the one before -/
def deltas (file : Bytes) : Nat → Nat → In → Option (List Nat × In)
  | 0, _, s => some ([], s)
  | n + 1, prev, s =>
    match nextValue file s with
    | none => none
    | some (v, s') =>
      let x := (prev + (v &&& 0xff)) &&& 0xff
      (deltas file n x s').map (fun r => (x :: r.1, r.2))

/-- msl_edr.py 498-501: read bits until at a byte boundary, then until at a multiple of four. At the end of
the file `next_bit` does not move, so the loop may never end; `none`: not finished after `fuel` bits. -/
def align (file : Bytes) : Nat → In → Option In
  | 0, s => if 0 < s.bit ∨ s.p % 4 ≠ 0 then none else some s
  | fuel + 1, s =>
    if 0 < s.bit ∨ s.p % 4 ≠ 0 then
      match nextBit file s with
      | none => align file fuel s
      | some (_, s') => align file fuel s'
    else some s

/-- msl_edr.py 481-501 `decode_x`: one plane. If 32 bits do not lead to a boundary, nothing will (theorem
`align_hangs`). -/
def decodeX (file : Bytes) (width : Nat) (s : In) : Outcome (List Nat × In) :=
  match findSync file (file.length + 1) s with
  | none => .err .ioError
  | some s1 =>
    match deltas file width 0 s1 with
    | none => .err .ioError
    | some (xs, s2) =>
      match align file 32 s2 with
      | none => .hang
      | some s3 => .ok (xs, s3)

/-- msl_edr.py 524-527: four planes -/
def decodePlanes (file : Bytes) (width : Nat) : Nat → In → Outcome (List (List Nat) × In)
  | 0, s => .ok ([], s)
  | n + 1, s =>
    match decodeX file width s with
    | .err e => .err e
    | .hang => .hang
    | .ok (xs, s') =>
      match decodePlanes file width n s' with
      | .err e => .err e
      | .hang => .hang
      | .ok (r, s'') => .ok (xs :: r, s'')

/-- msl_edr.py 541-546, one row: `a0 b0 a1 b1 ...` -/
def interleave : List Nat → List Nat → List Nat
  | a :: as, b :: bs => a :: b :: interleave as bs
  | _, _ => []

/-- msl_edr.py 538-546: the rows of a chunk, `half` elements of each plane at a time. Simplification: the
cells of the buffer are written one by one in the code, each exactly once, in this arrangement (the width is
even). -/
def weave (half : Nat) : Nat → List Nat → List Nat → List Nat → List Nat → List Nat
  | 0, _, _, _, _ => []
  | n + 1, a, b, c, d =>
    interleave (a.take half) (b.take half) ++ interleave (c.take half) (d.take half) ++
      weave half n (a.drop half) (b.drop half) (c.drop half) (d.drop half)

/-- msl_edr.py 515-549, the loop of `pdecom` over chunks of eight rows: the bytes of the image written so
far. `os.lseek(fd, 0, os.SEEK_CUR) >= s.length` is `p + 1 ≥ length`. -/
def chunks (file : Bytes) (width : Nat) : Nat → In → Outcome (List Nat)
  | 0, _ => .ok []
  | n + 1, s =>
    if file.length ≤ s.p + 1 then .ok []
    else match decodePlanes file (8 * width / 4) 4 s with
      | .err e => .err e
      | .hang => .hang
      | .ok ([a, b, c, d], s') =>
        match chunks file width n s' with
        | .err e => .err e
        | .hang => .hang
        | .ok r => .ok (weave (width / 2) 4 a b c d ++ r)
      | .ok _ => .err .valueError        -- unreachable: there are four planes

/-- msl_edr.py 504-550 `pdecom` into a zeroed buffer of `width * height` bytes (600-602) -/
def pdecom (file : Bytes) (width height : Nat) : Outcome (List Nat) :=
  match chunks file width (height / 8) ⟨0, 0⟩ with
  | .ok r => .ok (r ++ List.replicate (width * height - r.length) 0)
  | .err e => .err e
  | .hang => .hang

/-- msl_edr.py 553-625 `msl_edr_image_loader`. JPEG images are decoded by pillow: `jpeg` stands for
whatever comes out. (617-622: raw images with a final axis of length 1 end up 2-D; 603-606: 16-bit elements
need twice the bytes.) -/
def loader (jpeg : Bytes → Header → Outcome Img) (file : Bytes) : Outcome Img :=
  match decodeHeader file with
  | none => .err .ioError
  | some h =>
    match h.kind with
    | .raw =>
      let maxBytes :=
        if h.thumbnail then (h.width + 7) * (h.height + 7) * h.depth * h.bands
        else h.width * h.height * h.depth * h.bands
      match readRaw file h maxBytes with
      | .ok i => .ok i
      | .error e => .err e
    | .jpeg => jpeg file h
    | .pred =>
      match pdecom file h.width h.height with
      | .err e => .err e
      | .hang => .hang
      | .ok xs =>
        match toImage h.depth (xs.map UInt8.ofNat) [h.height, h.width] with
        | .ok i => .ok i
        | .error e => .err e

end Verif.Msl
