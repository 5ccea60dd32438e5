/-
Model of `pdr/formats/mgs_moc.py` 751-1230: MGS MOC images compressed by a cosine transform. Bytes are natural numbers
below 256.
-/
import Verif.Model.Moc
import Verif.Model.NumPy
import Verif.Model.Float
import Mathlib.Algebra.Order.Floor.Ring
import Mathlib.Data.Rat.Floor

namespace Verif.Moc
open Verif Verif.Py Verif.NumPy Verif.Float

/-! ### bits -/

/-- mgs_moc.py 258-266 `BitStruct`, as far as transform decompression uses it -/
structure BitQueue where
  queue : Nat
  count : Nat
  pos : Nat
deriving DecidableEq

/-- mgs_moc.py 258-266 -/
def bitStart (data : List Nat) : BitQueue := ⟨data.getD 0 0, 0, 0⟩

/-- mgs_moc.py 892-902, the loop of `read_bits`: it ends with 24 or more bits, so after three rounds at the latest (the
fuel) -/
def fill (data : List Nat) (n : Nat) : Nat → BitQueue → Except PyErr BitQueue
  | 0, b => .ok b
  | fuel + 1, b =>
    if b.count < 24 then
      if b.pos = data.length then
        if n ≤ b.count then .ok { b with pos := 0 } else .error .valueError
      else fill data n fuel ⟨b.queue ||| (data.getD b.pos 0 <<< b.count), b.count + 8, b.pos + 1⟩
    else .ok b

/-- mgs_moc.py 877-913 `read_bits` -/
def readBits (data : List Nat) (n : Nat) (b : BitQueue) : Except PyErr (Nat × BitQueue) :=
  if 24 < n then .error .valueError
  else
    (if b.count < n then fill data n 3 b else .ok b).map fun q =>
      (q.queue &&& (0xFFFFFFFF >>> (32 - n)), ⟨q.queue >>> n, q.count - n, q.pos⟩)

/-! ### codes -/

/-- mgs_moc.py 782-788 `BitTree`: `zero` and `one` are both None (a leaf) or both trees -/
inductive Tree
  | leaf (value : Int)
  | node (zero one : Tree)
deriving DecidableEq

/-- mgs_moc.py 99 -/
def largeNegative : Int := 0x1000000

/-- mgs_moc.py 100 -/
def largePositive : Int := 0x2000000

/-- mgs_moc.py 872-874 `bit_reverse`, of a number of 32 bits -/
def bitReverse (n : Nat) : Nat := (List.range 32).foldl (fun acc i => 2 * acc + n / 2 ^ i % 2) 0

/-- mgs_moc.py 916-937 `make_tree`; `ts` are the elements of `trees` from `start_idx`, `size` of them, with value and code.
The fuel stands for Python's limit on recursion. -/
def makeTree : Nat → List (Int × Nat) → Nat → Except PyErr Tree
  | 0, _, _ => .error .recursionError
  | _ + 1, [t], _ => .ok (.leaf t.1)
  | fuel + 1, ts, bit =>
    (makeTree fuel (ts.takeWhile fun t => t.2 &&& bit == 0) (bit <<< 1)).bind fun z =>
      (makeTree fuel (ts.dropWhile fun t => t.2 &&& bit == 0) (bit <<< 1)).map fun o => .node z o

/-- one element into a list sorted by the second component, after those with the same key -/
def insertBy (t : Int × Nat) : List (Int × Nat) → List (Int × Nat)
  | [] => [t]
  | s :: ss => if s.2 ≤ t.2 then s :: insertBy t ss else t :: s :: ss

/-- mgs_moc.py 956-963: the value of entry `n` of a code with `size` entries -/
def entryValue (size n : Nat) : Int :=
  if n = 0 then largeNegative else if n = size - 1 then largePositive else (n : Int) - (size / 2 : Nat)

/-- mgs_moc.py 950-976 in `init_block`, for one code: `trees.sort(key=lambda x: x.code)` is insertion from the end -/
def codeTree (size : Nat) (code : List Nat) : Except PyErr Tree :=
  let entries := ((List.range size).zip code).map fun e => (entryValue size e.1, bitReverse e.2)
  let sorted := entries.foldl (fun acc t => insertBy t acc) []
  makeTree 1000 (sorted.map fun t => (t.1, bitReverse t.2)) 1

/-- mgs_moc.py 2500-2508: `sizes`, `counts` and `encodings` -/
def dctCodes : List (Nat × List Nat × List Nat) :=
  sizes.zip [(num0, dct0), (num1, dct1), (num2, dct2), (num3, dct3), (num4, dct4), (num5, dct5), (num6, dct6), (num7, dct7)]

/-- mgs_moc.py 940-977 `init_block` -/
def initBlock : Except PyErr (List Tree) := dctCodes.mapM fun c => codeTree c.1 c.2.2

/-- mgs_moc.py 986-990 in `read_coef` -/
def walkTree (data : List Nat) : Tree → BitQueue → Except PyErr (Int × BitQueue)
  | .leaf v, b => .ok (v, b)
  | .node z o, b => (readBits data 1 b).bind fun r => if r.1 = 0 then walkTree data z r.2 else walkTree data o r.2

/-- mgs_moc.py 980-1005 `read_coef` -/
def readCoef (data : List Nat) (t : Tree) (b : BitQueue) : Except PyErr (Int × BitQueue) :=
  (walkTree data t b).bind fun r =>
    if r.1 = largeNegative then (readBits data 15 r.2).map fun s => (((s.1 ||| 0x8000 : Nat) : Int) - 0x10000, s.2)
    else if r.1 = largePositive then (readBits data 15 r.2).map fun s => (((s.1 &&& 0x7FFF : Nat) : Int), s.2)
    else .ok r

/-! ### blocks -/

/-- mgs_moc.py 1008-1017 `reorder` -/
def reorder (block : List Int) : List Int := trans.map fun i => block.getD i 0

/-- `int(x)` -/
def truncate (x : ℚ) : Int := if 0 ≤ x then ⌊x⌋ else ⌈x⌉

/-- mgs_moc.py 1206-1208: `int(dc * range_dc / 255.0 + min_dc)` -/
def dcValue (R : Rounding double) (dc minDc rangeDc : Int) : Int :=
  truncate (R.fl (R.fl ((dc * rangeDc : Int) / 255) + minDc))

/-- mgs_moc.py 1212-1214, the loop of `read_block` over the variances of the coefficients to be read -/
def readCoefs (data : List Nat) (trees : List Tree) (spacing : Nat) : List Nat → BitQueue → Except PyErr (List Int × BitQueue)
  | [], b => .ok ([], b)
  | v :: vs, b =>
    match trees[v]? with
    | none => .error .indexError
    | some t =>
      (readCoef data t b).bind fun r =>
        (readCoefs data trees spacing vs r.2).map fun s => (wrap int32 (r.1 * spacing) :: s.1, s.2)

/-- mgs_moc.py 1183-1223 `read_block` without the writing: the pixels of the block. `vars` are elements 1 to 255 of `var`;
`inv` stands for `inv_fdct_16x16`. -/
def readBlock (R : Rounding double) (inv : List Int → List Nat) (data : List Nat) (trees : List Tree) (transform : Int)
    (spacing minDc : Nat) (rangeDc : Int) (vars : List Nat) (b : BitQueue) : Except PyErr (List Nat × BitQueue) :=
  (readBits data 8 b).bind fun dc =>
    (readBits data 8 dc.2).bind fun zeros =>
      (readCoefs data trees spacing (vars.take (255 - zeros.1)) zeros.2).bind fun coefs =>
        if transform = 1 then
          .ok (inv (reorder (dcValue R dc.1 minDc rangeDc :: coefs.1 ++ List.replicate (255 - coefs.1.length) 0)), coefs.2)
        else .error .valueError

/-- pixels by their place in the array -/
abbrev Image := Nat → Nat

/-- `image[i] = v` -/
def put (im : Image) (i v : Nat) : Image := fun j => if j = i then v else im j

/-- mgs_moc.py 1225-1227 in `read_block` -/
def writeBlock (im : Image) (x y xSize : Nat) (block : List Nat) : Image :=
  (List.range 16).foldl (fun im y0 =>
    (List.range 16).foldl (fun im x0 => put im ((y + y0) * xSize + (x + x0)) (block.getD (y0 * 16 + x0) 0)) im) im

/-- mgs_moc.py 1173-1180 `read_groups` -/
def readGroups (data : List Nat) : Nat → BitQueue → Except PyErr (List Nat × BitQueue)
  | 0, b => .ok ([], b)
  | n + 1, b => (readBits data 3 b).bind fun r => (readGroups data n r.2).map fun s => (r.1 :: s.1, s.2)

/-- mgs_moc.py 841-858: the loops over the blocks for one level. What is in the image, and where reading ended or why. -/
def levelLoop (read : BitQueue → Except PyErr (List Nat × BitQueue)) (xSize level : Nat) :
    List ((Nat × Nat) × Nat) → Image → BitQueue → Image × Except PyErr BitQueue
  | [], im, b => (im, .ok b)
  | p :: rest, im, b =>
    if p.2 = level then
      match read b with
      | .error e => (im, .error e)
      | .ok r => levelLoop read xSize level rest (writeBlock im p.1.1 p.1.2 xSize r.1) r.2
    else levelLoop read xSize level rest im b

/-- mgs_moc.py 832-839: `min_dc`, `max_dc` and elements 1 to 255 of `var` -/
def readLevel (data : List Nat) (b : BitQueue) : Except PyErr ((Nat × Nat × List Nat) × BitQueue) :=
  (readBits data 16 b).bind fun lo =>
    (readBits data 16 lo.2).bind fun hi =>
      (readGroups data 255 hi.2).map fun v => ((lo.1, hi.1, v.1), v.2)

/-- mgs_moc.py 830-858: the loop over the levels. (`occ` counts the blocks of a level; it matters only if that is 0.) -/
def levels (R : Rounding double) (inv : List Int → List Nat) (data : List Nat) (trees : List Tree) (transform : Int)
    (spacing xSize : Nat) (blocks : List ((Nat × Nat) × Nat)) : List Nat → Image → BitQueue → Image × Except PyErr BitQueue
  | [], im, b => (im, .ok b)
  | level :: more, im, b =>
    if blocks.any fun p => p.2 == level then
      match readLevel data b with
      | .error e => (im, .error e)
      | .ok h =>
        match levelLoop (readBlock R inv data trees transform spacing h.1.1 ((h.1.2.1 : Int) - h.1.1) h.1.2.2) xSize level
            blocks im h.2 with
        | (im', .error e) => (im', .error e)
        | (im', .ok b') => levels R inv data trees transform spacing xSize blocks more im' b'
    else levels R inv data trees transform spacing xSize blocks more im b

/-- the corners of the blocks in the order of the loops: from top to bottom, then from left to right -/
def corners (width height : Nat) : List (Nat × Nat) :=
  (List.range (width / 16)).flatMap fun i => (List.range (height / 16)).map fun j => (16 * i, 16 * j)

/-- lines of an array -/
def toRows (im : Image) (width height : Nat) : List (List Nat) :=
  (List.range height).map fun r => (List.range width).map fun c => im (r * width + c)

/-- mgs_moc.py 796-869 `decompress`: the lines, and whether there was no warning. Sizes are multiples of 16, as the caller's
are. (`np.pad` in the handler has nothing to do, as the array always has its full size.) -/
def decompress (R : Rounding double) (inv : List Int → List Nat) (data : List Nat) (width height : Nat) (transform : Int)
    (spacing numLevels : Nat) : Except PyErr (List (List Nat) × Bool) :=
  initBlock.bind fun trees =>
    (readGroups data (width * height / 256) (bitStart data)).map fun g =>
      if g.1.any fun l => decide (numLevels ≤ l) then (toRows (fun _ => 0) width height, false)
      else
        match levels R inv data trees transform spacing width ((corners width height).zip g.1) (List.range numLevels)
            (fun _ => 0) g.2 with
        | (im, .error _) => (toRows im width height, false)
        | (im, .ok _) => (toRows im width height, true)

/-! ### the inverse cosine transform -/

/-- the arithmetic it is computed with -/
structure Arith (α : Type) where
  add : α → α → α
  sub : α → α → α
  mul : α → α → α
  neg : α → α

/-- mgs_moc.py 1028-1044 in `dct_inv16_double`: `tmp` -/
def dctA {α : Type} (o : Arith α) (c inp : Nat → α) : Nat → α
  | 0 => inp 0
  | 1 => inp 8
  | 2 => inp 4
  | 3 => inp 12
  | 4 => inp 2
  | 5 => inp 10
  | 6 => inp 6
  | 7 => inp 14
  | 8 => o.sub (o.mul (inp 1) (c 15)) (o.mul (inp 15) (c 1))
  | 9 => o.sub (o.mul (inp 9) (c 7)) (o.mul (inp 7) (c 9))
  | 10 => o.sub (o.mul (inp 5) (c 11)) (o.mul (inp 11) (c 5))
  | 11 => o.sub (o.mul (inp 13) (c 3)) (o.mul (inp 3) (c 13))
  | 12 => o.add (o.mul (inp 3) (c 3)) (o.mul (inp 13) (c 13))
  | 13 => o.add (o.mul (inp 11) (c 11)) (o.mul (inp 5) (c 5))
  | 14 => o.add (o.mul (inp 7) (c 7)) (o.mul (inp 9) (c 9))
  | _ => o.add (o.mul (inp 15) (c 15)) (o.mul (inp 1) (c 1))

/-- mgs_moc.py 1046-1061: `out` -/
def dctB {α : Type} (o : Arith α) (c tmp : Nat → α) : Nat → α
  | 0 => tmp 0
  | 1 => tmp 1
  | 2 => tmp 2
  | 3 => tmp 3
  | 4 => o.sub (o.mul (tmp 4) (c 14)) (o.mul (tmp 7) (c 2))
  | 5 => o.sub (o.mul (tmp 5) (c 6)) (o.mul (tmp 6) (c 10))
  | 6 => o.add (o.mul (tmp 6) (c 6)) (o.mul (tmp 5) (c 10))
  | 7 => o.add (o.mul (tmp 7) (c 14)) (o.mul (tmp 4) (c 2))
  | 8 => o.add (tmp 8) (tmp 9)
  | 9 => o.add (o.neg (tmp 9)) (tmp 8)
  | 10 => o.add (o.neg (tmp 10)) (tmp 11)
  | 11 => o.add (tmp 11) (tmp 10)
  | 12 => o.add (tmp 12) (tmp 13)
  | 13 => o.add (o.neg (tmp 13)) (tmp 12)
  | 14 => o.add (o.neg (tmp 14)) (tmp 15)
  | _ => o.add (tmp 15) (tmp 14)

/-- mgs_moc.py 1063-1080: `tmp` -/
def dctC {α : Type} (o : Arith α) (c out : Nat → α) : Nat → α
  | 0 => o.mul (o.add (out 0) (out 1)) (c 8)
  | 1 => o.mul (o.add (o.neg (out 1)) (out 0)) (c 8)
  | 2 => o.sub (o.mul (out 2) (c 12)) (o.mul (out 3) (c 4))
  | 3 => o.add (o.mul (out 3) (c 12)) (o.mul (out 2) (c 4))
  | 4 => o.add (out 4) (out 5)
  | 5 => o.add (o.neg (out 5)) (out 4)
  | 6 => o.add (o.neg (out 6)) (out 7)
  | 7 => o.add (out 7) (out 6)
  | 8 => out 8
  | 9 => o.add (o.mul (o.neg (out 9)) (c 4)) (o.mul (out 14) (c 12))
  | 10 => o.sub (o.mul (o.neg (out 10)) (c 12)) (o.mul (out 13) (c 4))
  | 11 => out 11
  | 12 => out 12
  | 13 => o.sub (o.mul (out 13) (c 12)) (o.mul (out 10) (c 4))
  | 14 => o.add (o.mul (out 14) (c 4)) (o.mul (out 9) (c 12))
  | _ => out 15

/-- mgs_moc.py 1082-1099: `out` -/
def dctD {α : Type} (o : Arith α) (c tmp : Nat → α) : Nat → α
  | 0 => o.add (tmp 0) (tmp 3)
  | 1 => o.add (tmp 1) (tmp 2)
  | 2 => o.add (o.neg (tmp 2)) (tmp 1)
  | 3 => o.add (o.neg (tmp 3)) (tmp 0)
  | 4 => tmp 4
  | 5 => o.mul (o.add (o.neg (tmp 5)) (tmp 6)) (c 8)
  | 6 => o.mul (o.add (tmp 6) (tmp 5)) (c 8)
  | 7 => tmp 7
  | 8 => o.add (tmp 8) (tmp 11)
  | 9 => o.add (tmp 9) (tmp 10)
  | 10 => o.add (o.neg (tmp 10)) (tmp 9)
  | 11 => o.add (o.neg (tmp 11)) (tmp 8)
  | 12 => o.add (o.neg (tmp 12)) (tmp 15)
  | 13 => o.add (o.neg (tmp 13)) (tmp 14)
  | 14 => o.add (tmp 14) (tmp 13)
  | _ => o.add (tmp 15) (tmp 12)

/-- mgs_moc.py 1101-1120: `tmp` -/
def dctE {α : Type} (o : Arith α) (c out : Nat → α) : Nat → α
  | 0 => o.add (out 0) (out 7)
  | 1 => o.add (out 1) (out 6)
  | 2 => o.add (out 2) (out 5)
  | 3 => o.add (out 3) (out 4)
  | 4 => o.add (o.neg (out 4)) (out 3)
  | 5 => o.add (o.neg (out 5)) (out 2)
  | 6 => o.add (o.neg (out 6)) (out 1)
  | 7 => o.add (o.neg (out 7)) (out 0)
  | 8 => out 8
  | 9 => out 9
  | 10 => o.mul (o.add (o.neg (out 10)) (out 13)) (c 8)
  | 11 => o.mul (o.add (o.neg (out 11)) (out 12)) (c 8)
  | 12 => o.mul (o.add (out 12) (out 11)) (c 8)
  | 13 => o.mul (o.add (out 13) (out 10)) (c 8)
  | 14 => out 14
  | _ => out 15

/-- mgs_moc.py 1122-1137: `out` -/
def dctF {α : Type} (o : Arith α) (tmp : Nat → α) : Nat → α
  | 0 => o.add (tmp 0) (tmp 15)
  | 1 => o.add (tmp 1) (tmp 14)
  | 2 => o.add (tmp 2) (tmp 13)
  | 3 => o.add (tmp 3) (tmp 12)
  | 4 => o.add (tmp 4) (tmp 11)
  | 5 => o.add (tmp 5) (tmp 10)
  | 6 => o.add (tmp 6) (tmp 9)
  | 7 => o.add (tmp 7) (tmp 8)
  | 8 => o.add (o.neg (tmp 8)) (tmp 7)
  | 9 => o.add (o.neg (tmp 9)) (tmp 6)
  | 10 => o.add (o.neg (tmp 10)) (tmp 5)
  | 11 => o.add (o.neg (tmp 11)) (tmp 4)
  | 12 => o.add (o.neg (tmp 12)) (tmp 3)
  | 13 => o.add (o.neg (tmp 13)) (tmp 2)
  | 14 => o.add (o.neg (tmp 14)) (tmp 1)
  | _ => o.add (o.neg (tmp 15)) (tmp 0)

/-- mgs_moc.py 1020-1137 `dct_inv16_double`; `c` is `cosineDouble`. (Called with the same array as `inp` and `out`, but `inp`
is not read after the first assignment to `out`.) -/
def dctInv16 {α : Type} (o : Arith α) (c inp : Nat → α) : Nat → α :=
  dctF o (dctE o c (dctD o c (dctC o c (dctB o c (dctA o c inp)))))

/-- mgs_moc.py 1153-1165: rows, columns and back; pixel `(i, j)` is at `16 * i + j` -/
def dctInv16x16 {α : Type} (o : Arith α) (c data : Nat → α) (i j : Nat) : α :=
  dctInv16 o c (fun u => dctInv16 o c (fun v => data (16 * u + v)) j) i

/-- double arithmetic; overflow is not modelled, the numbers here are far too small -/
def doubles (R : Rounding double) : Arith ℚ :=
  ⟨fun x y => R.fl (x + y), fun x y => R.fl (x - y), fun x y => R.fl (x * y), fun x => -x⟩

/-- mgs_moc.py 1764-1781 `cosineDouble` -/
def cosineDouble (k : Nat) : ℚ := (cosine60.getD k 0 : ℚ) / 2 ^ 60

/-- mgs_moc.py 1149-1151: the coefficients as doubles -/
def dctData (inp : List Int) (i : Nat) : ℚ := if i = 0 then wrap uint16 (inp.getD 0 0) else inp.getD i 0

/-- mgs_moc.py 1140-1170 `inv_fdct_16x16` -/
def invFdct (R : Rounding double) (inp : List Int) : List Nat :=
  (List.range 256).map fun i =>
    (max 0 (min 255 (truncate (R.fl (R.fl (dctInv16x16 (doubles R) cosineDouble (dctData inp) (i / 16) (i % 16) / 127) + 1 / 2))))).toNat

/-! ### fragments -/

/-- mgs_moc.py 756-779 `decompress_transform_image` -/
def decompressTransform (R : Rounding double) (h : Header) (data : List Nat) : Except PyErr (List (List Nat) × Bool) :=
  decompress R (invFdct R) data (h.editLength * 16) (h.downLength * 16) ((h.xcomp : Int) - 1)
    (h.compression.getD 4 0 ||| h.compression.getD 5 0 <<< 8) (h.compression.getD 1 0 / 32 + 1)

end Verif.Moc
