/-
Specification of MOC transform compression: how coded blocks become bytes, and what image they show, independent of the
decoder.
-/
import Verif.Spec.Moc
import Mathlib.Analysis.SpecialFunctions.Trigonometric.Basic

namespace Verif.Moc.Spec
open Verif.Moc

/-! ### coded numbers -/

/-- the lowest `n` bits of a number, lowest first -/
def bitsOfNat (n x : Nat) : List Bool := (List.range n).map fun i => x.testBit i

/-- A coded coefficient: small ones have codewords of their own, others an escape and 15 bits. -/
inductive Coef
  | small (c : Int)
  | negative (m : Nat)
  | positive (m : Nat)
deriving DecidableEq

/-- what a coded coefficient stands for -/
def Coef.value : Coef → Int
  | .small c => c
  | .negative m => (m : Int) - 32768
  | .positive m => m

/-- coefficients the code with `size` entries can have -/
def Coef.Fits (size : Nat) : Coef → Prop
  | .small c => -((size / 2 : Nat) : Int) < c ∧ c < (size / 2 : Nat)
  | .negative m => m < 32768
  | .positive m => m < 32768

/-- Its bits in a code with `size` entries, given by length and bits of each: the first entry is the escape for negative
numbers, the last for positive ones, and between them are the numbers around 0 in order. -/
def Coef.bits (size : Nat) (len code : List Nat) : Coef → List Bool
  | .small c => codeword code len (c + (size / 2 : Nat)).toNat
  | .negative m => codeword code len 0 ++ bitsOfNat 15 m
  | .positive m => codeword code len (size - 1) ++ bitsOfNat 15 m

/-! ### blocks and fragments -/

/-- What the blocks of one level share: the range of the mean, and for each of the other 255 coefficients the number of its
code. -/
structure Level where
  minDc : Nat
  maxDc : Nat
  vars : List Nat

/-- A block of 16 by 16 pixels: its level, its mean in 256 steps, and coefficients from the second on; the rest are 0. -/
structure Block where
  level : Nat
  dc : Nat
  coefs : List Coef

/-- A fragment: the levels by number, and the blocks from top to bottom, then from left to right. -/
structure Coded where
  levels : Nat → Level
  blocks : List Block

/-- the eight codes: number of entries, length and bits of each -/
def codes : List (Nat × List Nat × List Nat) :=
  [(25, num0, dct0), (47, num1, dct1), (69, num2, dct2), (109, num3, dct3), (169, num4, dct4), (247, num5, dct5),
   (395, num6, dct6), (609, num7, dct7)]

/-- a code by its number -/
def codeOf (v : Nat) : Nat × List Nat × List Nat := codes.getD v (0, [], [])

/-- coefficients in the codes their level says -/
def coefBits : List Nat → List Coef → List Bool
  | v :: vs, c :: cs => c.bits (codeOf v).1 (codeOf v).2.1 (codeOf v).2.2 ++ coefBits vs cs
  | _, _ => []

def Block.bits (l : Level) (b : Block) : List Bool :=
  bitsOfNat 8 b.dc ++ bitsOfNat 8 (255 - b.coefs.length) ++ coefBits l.vars b.coefs

def Level.bits (l : Level) : List Bool := bitsOfNat 16 l.minDc ++ bitsOfNat 16 l.maxDc ++ l.vars.flatMap (bitsOfNat 3)

/-- the part of one level: nothing if no block is on it -/
def Coded.levelBits (f : Coded) (k : Nat) : List Bool :=
  if f.blocks.any fun b => b.level == k then
    (f.levels k).bits ++ (f.blocks.filter fun b => b.level == k).flatMap (Block.bits (f.levels k))
  else []

/-- the bits of a fragment with `n` levels: the level of each block, then the levels -/
def Coded.bits (f : Coded) (n : Nat) : List Bool :=
  f.blocks.flatMap (fun b => bitsOfNat 3 b.level) ++ (List.range n).flatMap f.levelBits

/-- each coefficient in its code -/
def CoefsFit : List Nat → List Coef → Prop
  | v :: vs, c :: cs => c.Fits (codeOf v).1 ∧ CoefsFit vs cs
  | _, [] => True
  | [], _ :: _ => False

def Level.Fits (l : Level) : Prop :=
  l.minDc < 65536 ∧ l.maxDc < 65536 ∧ l.vars.length = 255 ∧ ∀ v ∈ l.vars, v < 8

/-- numbers within their bounds -/
def Coded.Fits (f : Coded) (n : Nat) : Prop :=
  (∀ k, k < n → (f.levels k).Fits) ∧
  ∀ b ∈ f.blocks, b.level < n ∧ b.dc < 256 ∧ b.coefs.length ≤ 255 ∧ CoefsFit (f.levels b.level).vars b.coefs

/-- the bits of a fragment up to the end of block `i` -/
def Coded.upTo (f : Coded) (i : Nat) : List Bool :=
  let lv := (f.blocks.getD i ⟨0, 0, []⟩).level
  f.blocks.flatMap (fun b => bitsOfNat 3 b.level) ++ (List.range lv).flatMap f.levelBits ++
    (f.levels lv).bits ++ ((f.blocks.take (i + 1)).filter fun b => b.level == lv).flatMap (Block.bits (f.levels lv))

/-! ### what a block shows -/

/-- the mean: a value between the ends of the range, rounded down -/
def Level.dc (l : Level) (dc : Nat) : Int := (255 * (l.minDc : Int) + dc * ((l.maxDc : Int) - l.minDc)) / 255

/-- the 256 coefficients in the order of the code -/
def Block.coefficients (l : Level) (spacing : Nat) (b : Block) (i : Nat) : Int :=
  if i = 0 then l.dc b.dc else ((b.coefs.map fun c => c.value * (spacing : Int)).getD (i - 1) 0)

/-- the coefficients in their places: the table has for each place of the square (line by line) the number in the order of
the code -/
def Block.placed (l : Level) (spacing : Nat) (b : Block) (i : Nat) : Int := b.coefficients l spacing (trans.getD i 0)

/-- The image of a fragment `W` blocks wide and `H` high, if a block shows `pixel block i j` at its line `i` and column `j`:
the pixel at line `r` and column `c` is in the block number `r / 16` from the top of the column of blocks number `c / 16`. -/
def Coded.image (f : Coded) (pixel : Block → Nat → Nat → Nat) (W H : Nat) : List (List Nat) :=
  (List.range (H * 16)).map fun r => (List.range (W * 16)).map fun c =>
    pixel (f.blocks.getD (c / 16 * H + r / 16) ⟨0, 0, []⟩) (r % 16) (c % 16)

/-- `cos (k π / 32)` -/
noncomputable def cosine (k : Nat) : ℝ := Real.cos (k * Real.pi / 32)

/-- the weight of a coefficient -/
noncomputable def weight (k : Nat) : ℝ := if k = 0 then Real.sqrt 2 / 2 else 1

/-- the inverse cosine transform of 16 numbers -/
noncomputable def inverseDct (x : Nat → ℝ) (n : Nat) : ℝ :=
  ∑ k ∈ Finset.range 16, weight k * x k * cosine ((2 * n + 1) * k)

/-- the inverse cosine transform of a square -/
noncomputable def inverseDct2 (x : Nat → ℝ) (i j : Nat) : ℝ :=
  ∑ u ∈ Finset.range 16, ∑ v ∈ Finset.range 16,
    weight u * weight v * x (16 * u + v) * cosine ((2 * i + 1) * u) * cosine ((2 * j + 1) * v)

/-- what a block shows at its line `i` and column `j`: the transform of its coefficients on a scale of 127, from 0 to 255 -/
noncomputable def Block.shows (l : Level) (spacing : Nat) (b : Block) (i j : Nat) : ℝ :=
  max 0 (min 255 (inverseDct2 (fun k => (b.placed l spacing k : ℝ)) i j / 127))

/-- bit `n` of bytes repeated for ever -/
def cyclic (data : List Nat) (n : Nat) : Bool := bit data (n % (8 * data.length))

/-- the stream has these bits from `k` on -/
def Has (s : Nat → Bool) (k : Nat) (bits : List Bool) : Prop := ∀ i, i < bits.length → s (k + i) = bits.getD i false

end Verif.Moc.Spec
