/-
Specification of MOC compression: how an image becomes bytes, independent of the decoder.
-/
import Verif.Model.MocTables

namespace Verif.Moc.Spec
open Verif.Moc

/-! ### bits -/

/-- bit `n` of some bytes: bytes in order, in each of them the lowest bit first; nothing but 0 after their end -/
def bit (data : List Nat) (n : Nat) : Bool := (data.getD (n / 8) 0).testBit (n % 8)

/-- the number with these bits, lowest first -/
def ofBits : List Bool → Nat
  | [] => 0
  | b :: bs => b.toNat + 2 * ofBits bs

/-- eight bits to a byte, the last byte filled with 0 -/
def pack (bits : List Bool) : List Nat :=
  (List.range ((bits.length + 7) / 8)).map fun k => ofBits ((bits.drop (8 * k)).take 8)

/-- the codeword of a byte, in a code given by the bits and the length for each byte: lowest bit first -/
def codeword (bits len : List Nat) (s : Nat) : List Bool :=
  (List.range (len.getD s 0)).map fun i => (bits.getD s 0).testBit i

/-! ### lines -/

/-- pixels from coded differences along a line, `v` what a coded byte stands for, `p` the pixel before -/
def alongLine (v : Nat → Nat) : Nat → List Nat → List Nat
  | _, [] => []
  | p, s :: ss => (p + v s) % 256 :: alongLine v ((p + v s) % 256) ss

/-- pixels from coded differences to the line above -/
def fromAbove (v : Nat → Nat) (above syms : List Nat) : List Nat := List.zipWith (fun a s => (a + v s) % 256) above syms

/-- differences along a line -/
def diffAlong (row : List Nat) : List Nat := List.zipWith (fun a p => (a + 256 - p) % 256) row (0 :: row)

/-- differences to the line above -/
def diffAbove (above row : List Nat) : List Nat := List.zipWith (fun a p => (a + 256 - p) % 256) row above

/-- the two predictors, by their numbers in the header -/
inductive Pred
  | x
  | y
deriving DecidableEq

def Pred.number : Pred → Nat
  | .x => 1
  | .y => 2

/-- the lines of a section after its first line, from the coded bytes -/
def restOf (pr : Pred) (v : Nat → Nat) : List Nat → List (List Nat) → List (List Nat)
  | _, [] => []
  | above, syms :: more =>
    let row := match pr with | .x => alongLine v 0 syms | .y => fromAbove v above syms
    row :: restOf pr v row more

/-- the bytes to be coded for the lines of a section after its first line -/
def symsOf (pr : Pred) : List Nat → List (List Nat) → List (List Nat)
  | _, [] => []
  | above, row :: more =>
    (match pr with | .x => diffAlong row | .y => diffAbove above row) :: symsOf pr row more

/-! ### sections of 128 lines -/

/-- A section: its first line as it is, and the coded bytes of the lines that follow. -/
structure Section where
  first : List Nat
  rest : List (List Nat)

/-- the lines a section shows -/
def Section.rows (pr : Pred) (v : Nat → Nat) (s : Section) : List (List Nat) := s.first :: restOf pr v s.first s.rest

/-- the lines sections show -/
def imageOf (pr : Pred) (v : Nat → Nat) (secs : List Section) : List (List Nat) := secs.flatMap (Section.rows pr v)

/-- a section in the file: marker, first line, codewords, and up to an even number of bytes -/
def Section.bytes (cw : Nat → List Bool) (s : Section) : List Nat :=
  let body := s.first ++ pack (s.rest.flatten.flatMap cw)
  [0xca, 0xf0] ++ body ++ List.replicate (body.length % 2) 0

/-- the sections of an image coded without loss: 128 lines each, the last one what is left -/
def sectionsOf (pr : Pred) (rows : List (List Nat)) : List Section :=
  (List.range ((rows.length + 127) / 128)).map fun k =>
    match (rows.drop (128 * k)).take 128 with
    | [] => ⟨[], []⟩
    | r :: rs => ⟨r, symsOf pr r rs⟩

/-- sections as they occur: all lines `w` bytes wide; 128 lines in each section but the last, which has 1 to 128 -/
def WellFormed (w : Nat) : List Section → Prop
  | [] => True
  | s :: ss =>
    s.first.length = w ∧ (∀ r ∈ s.rest, r.length = w) ∧ (∀ r ∈ s.rest, ∀ x ∈ r, x < 256) ∧
      (s.rest.length = 127 ∨ s.rest.length < 127 ∧ ss = []) ∧ WellFormed w ss

/-- at byte `o` there is a marker, followed by a line that looks like one: 31 neighbouring pixels, from the second on,
differ by at most 64 -/
def MarkerAt (data : List Nat) (o : Nat) : Prop :=
  data.getD o 0 + 256 * data.getD (o + 1) 0 = 0xf0ca ∧
    ∀ k, 1 ≤ k → k ≤ 31 → o + 2 + k + 1 < data.length ∧
      ((data.getD (o + 2 + k) 0 : Int) - (data.getD (o + 2 + k + 1) 0 : Int)).natAbs ≤ 64

/-! ### fragments -/

/-- A fragment of the file: 62 bytes of header, the compressed bytes, one byte more. -/
structure Fragment where
  head : List Nat
  body : List Nat
  check : Nat

def Fragment.bytes (f : Fragment) : List Nat := f.head ++ f.body ++ [f.check]

/-- a number of several bytes, the lowest first -/
def littleEndian : List Nat → Nat
  | [] => 0
  | b :: bs => b + 256 * littleEndian bs

/-- the number in bytes `o` to `o + n - 1` -/
def field (d : List Nat) (o n : Nat) : Nat := littleEndian ((d.drop o).take n)

end Verif.Moc.Spec
