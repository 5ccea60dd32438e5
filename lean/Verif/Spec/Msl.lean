/-
Specification of the MSL predictive compression: the code table, the layout of a plane and of an image.
-/
import Verif.Model.Msl

namespace Verif.Msl.Spec

/-- The code of each byte value 0, 1, 2, ...: number of bits, and the bits as a number. -/
def codeTable : List (Nat × Nat) :=
  [(4, 1), (4, 3), (4, 6), (4, 11), (4, 14), (5, 9), (5, 18), (5, 26),
   (6, 2), (6, 22), (6, 38), (6, 54), (7, 1), (7, 41), (7, 65), (7, 111),
   (8, 15), (8, 95), (8, 192), (8, 195), (9, 160), (9, 256), (9, 386), (10, 2),
   (10, 322), (10, 325), (10, 774), (11, 6), (11, 646), (11, 1030), (11, 1552), (12, 18),
   (12, 1296), (12, 2064), (12, 3109), (13, 33), (13, 2596), (13, 5068), (13, 6220), (13, 6223),
   (14, 5194), (14, 10135), (15, 152), (14, 12442), (15, 20225), (15, 20224), (15, 16639), (15, 16638),
   (15, 16637), (15, 16636), (15, 16635), (15, 16634), (15, 16633), (15, 16632), (15, 16631), (15, 16630),
   (15, 16629), (15, 16628), (15, 16627), (15, 16626), (15, 16625), (15, 16624), (15, 16623), (15, 16622),
   (15, 16621), (15, 16620), (15, 16619), (15, 16618), (15, 16617), (15, 16616), (15, 16615), (15, 16614),
   (15, 16613), (15, 16612), (15, 16611), (15, 16610), (15, 16609), (15, 16608), (15, 16607), (15, 16606),
   (15, 16605), (15, 16604), (15, 16603), (15, 16602), (15, 16601), (15, 16600), (15, 16599), (15, 16598),
   (15, 16597), (15, 16596), (15, 16595), (15, 16594), (15, 16593), (15, 16592), (15, 20251), (15, 20227),
   (15, 20255), (15, 20254), (15, 20259), (15, 20258), (15, 20262), (15, 20261), (15, 16583), (15, 16582),
   (15, 16581), (15, 16580), (15, 16579), (15, 20226), (15, 16591), (15, 16576), (15, 16575), (15, 16574),
   (15, 16573), (15, 16572), (15, 16571), (15, 20264), (15, 20263), (15, 16568), (15, 16567), (15, 16566),
   (15, 16565), (15, 16564), (15, 20266), (15, 20265), (15, 16561), (15, 16560), (15, 20267), (15, 20268),
   (15, 20269), (15, 16556), (15, 16555), (15, 16554), (15, 16553), (15, 16590), (15, 16578), (15, 16550),
   (15, 16549), (15, 16548), (15, 16547), (15, 16546), (15, 16577), (15, 16552), (15, 16543), (15, 16542),
   (15, 16541), (15, 16540), (15, 16539), (15, 16538), (15, 16537), (15, 16536), (15, 16535), (15, 16534),
   (15, 16533), (15, 16551), (15, 16545), (15, 16530), (15, 16544), (15, 16532), (15, 16527), (15, 16526),
   (15, 16525), (15, 16524), (15, 16523), (15, 16531), (15, 16529), (15, 16522), (15, 10391), (15, 16521),
   (15, 16520), (15, 153), (15, 10390), (15, 16528), (15, 16587), (15, 16588), (15, 16589), (15, 20228),
   (15, 20229), (15, 20230), (15, 20231), (15, 20252), (15, 16585), (15, 16586), (15, 20253), (15, 20232),
   (15, 20233), (15, 20234), (15, 20235), (15, 20256), (15, 16584), (15, 20257), (15, 20236), (15, 20237),
   (15, 20238), (15, 20260), (15, 16557), (15, 16558), (15, 16559), (15, 16562), (15, 16563), (15, 16569),
   (15, 16570), (15, 20239), (15, 20240), (15, 20241), (15, 20242), (15, 20243), (15, 20244), (15, 20245),
   (15, 20246), (15, 20247), (15, 20248), (15, 20249), (15, 20250), (14, 12443), (14, 10141), (14, 10140),
   (14, 77), (13, 6222), (13, 5071), (13, 5069), (13, 39), (13, 32), (12, 3108), (12, 1299),
   (12, 1297), (12, 17), (11, 1553), (11, 1031), (11, 647), (11, 7), (10, 775), (10, 514),
   (10, 5), (9, 389), (9, 317), (9, 163), (9, 3), (9, 0), (8, 159), (8, 94),
   (8, 14), (7, 110), (7, 78), (7, 46), (7, 6), (6, 49), (6, 33), (6, 21),
   (6, 1), (5, 25), (5, 17), (5, 8), (4, 15), (4, 10), (4, 7), (4, 2)]

/-- `n` bits of a number, most significant first -/
def bitsOfNat (n v : Nat) : List Bool := (List.range n).map (fun i => v.testBit (n - 1 - i))

/-- the code of a byte value -/
def code (v : Nat) : List Bool := bitsOfNat (codeTable.getD v (0, 0)).1 (codeTable.getD v (0, 0)).2

/-- the bits of a byte string, most significant first -/
def bits (bs : Bytes) : List Bool := bs.flatMap (fun b => bitsOfNat 8 b.toNat)

/-- the differences (modulo 256) of a row of bytes, the first one from `prev` -/
def differences : Nat → List Nat → List Nat
  | _, [] => []
  | prev, x :: xs => (x + 256 - prev) % 256 :: differences x xs

/-- the sync word -/
def sync : Bytes := [0xff, 0xff, 0, 0]

/-- A segment that holds one plane `xs` and ends at a multiple of four in the file: junk without a sync
word, the sync word, the codes of the differences, and fewer than 32 bits of padding of any value. `pos` is where it
starts. -/
structure Segment (pos : Nat) (xs : List Nat) (seg : Bytes) : Prop where
  layout : ∃ junk body pad, seg = junk ++ sync ++ body ∧ ¬ sync <:+: junk ∧
    bits body = (differences 0 xs).flatMap code ++ pad ∧ pad.length < 32
  aligned : (pos + seg.length) % 4 = 0

/-- consecutive segments -/
inductive Segments : Nat → List (List Nat) → Bytes → Prop
  | nil {pos} : Segments pos [] []
  | cons {pos xs seg xss rest} : Segment pos xs seg → Segments (pos + seg.length) xss rest →
      Segments pos (xs :: xss) (seg ++ rest)

/-- the pixels of plane `k` of rows `8 * j ... 8 * j + 7` of an image of width `w`: planes 0 and 1 are the even and odd
columns of the even rows, planes 2 and 3 those of the odd rows -/
def plane (pix : Nat → Nat → Nat) (w j k : Nat) : List Nat :=
  (List.range (2 * w)).map (fun i => pix (8 * j + 2 * (i / (w / 2)) + k / 2) (2 * (i % (w / 2)) + k % 2))

/-- all planes of the first `n` groups of eight rows, in file order -/
def planes (pix : Nat → Nat → Nat) (w n : Nat) : List (List Nat) :=
  (List.range n).flatMap (fun j => (List.range 4).map (plane pix w j))

/-! ### header and raw images -/

/-- byte `i` of the file; zero beyond its end -/
def byteAt (file : Bytes) (i : Nat) : Nat := ((file[i]?).getD 0).toNat

/-- at `o`, there are 64 bytes that end with the magic number 0x1010cc28 -/
def HeaderAt (file : Bytes) (o : Nat) : Prop :=
  o + 64 ≤ file.length ∧ byteAt file (o + 60) = 0x10 ∧ byteAt file (o + 61) = 0x10 ∧ byteAt file (o + 62) = 0xcc ∧
    byteAt file (o + 63) = 0x28

/-- what the bytes of a header at `o` mean -/
structure HeaderFields (file : Bytes) (o : Nat) (h : Header) : Prop where
  width : h.width = if byteAt file (o + 22) = 0 then 1648 else 8 * byteAt file (o + 22)
  height : h.height = if byteAt file (o + 23) = 0 then 1200 else 8 * byteAt file (o + 23)
  raw : h.kind = .raw ↔ byteAt file (o + 35) = 0 ∧ byteAt file (o + 34) = 0
  pred : h.kind = .pred ↔ byteAt file (o + 35) = 0 ∧ byteAt file (o + 34) ≠ 0
  jpeg : h.kind = .jpeg ↔ byteAt file (o + 35) ≠ 0
  depth : h.depth = if byteAt file (o + 35) = 0 ∧ byteAt file (o + 36) = 0 ∧ byteAt file (o + 37) = 0 ∧
    byteAt file (o + 38) = 0 ∧ byteAt file (o + 39) = 255 then 2 else 1
  bands : h.bands = if byteAt file (o + 35) ≠ 0 ∧ byteAt file (o + 34) ≠ 0 then 3 else 1
  thumbnail : h.thumbnail = (byteAt file o).testBit 3

/-- pixel `(r, c)` of a raw image of width `w`: one byte, or two bytes with the most significant one first,
from byte 64 of the file on; zero where there are no data -/
def rawPixel (file : Bytes) (depth w r c : Nat) : Nat :=
  if depth = 2 then byteAt file (64 + 2 * (r * w + c)) * 256 + byteAt file (64 + 2 * (r * w + c) + 1)
  else byteAt file (64 + (r * w + c))

/-- byte `i` of the data, of which only the first `m` are looked at -/
def dataByte (file : Bytes) (m i : Nat) : Nat := if i < m then byteAt file (64 + i) else 0

/-- the bytes that are read of a raw thumbnail -/
def thumbBytes (file : Bytes) (h : Header) : Nat := min (file.length - 64) ((h.width + 7) * (h.height + 7) * h.depth)

/-- candidate `k` for the size of a thumbnail fits the number of bytes read: 32 or 56 bytes are padding -/
def Fits (file : Bytes) (h : Header) (k : Nat) : Prop :=
  (h.height + k / 8) * (h.width + k % 8) * h.depth + 32 = thumbBytes file h ∨
  (h.height + k / 8) * (h.width + k % 8) * h.depth + 56 = thumbBytes file h

/-- a raw image of `a` rows and `b` columns, from the first `m` bytes of the data -/
def IsRaw (file : Bytes) (depth m a b : Nat) (img : Img) : Prop :=
  img.shape = [a, b] ∧ img.pixels.length = a * b ∧ ∀ r c, r < a → c < b → img.pixels[r * b + c]? =
    some (if depth = 2 then dataByte file m (2 * (r * b + c)) * 256 + dataByte file m (2 * (r * b + c) + 1)
      else dataByte file m (r * b + c))

end Verif.Msl.Spec
