/-
Specification of bit columns.
-/
import Verif.Model.Bits

namespace Verif.Bits.Spec

/-- the eight bits of a byte, most significant first -/
def byteBits (b : UInt8) : Str :=
  [7, 6, 5, 4, 3, 2, 1, 0].map (fun i => if b.toNat.testBit i then '1' else '0')

/-- the bits of a byte string, byte after byte -/
def bytesBits (bs : Bytes) : Str := bs.flatMap byteBits

/-- how a field of `L` bytes falls into machine words: as many 8-byte words as fit, then at most one
each of 4, 2 and 1 bytes -/
def wordWidths (L : Nat) : List Nat :=
  List.replicate (L / 8) 8 ++ (if 4 ≤ L % 8 then [4] else []) ++ (if 2 ≤ L % 4 then [2] else []) ++
    (if 1 ≤ L % 2 then [1] else [])

/-- a field with the bytes of each of its words reversed -/
def swapWords : List Nat → Bytes → Bytes
  | [], _ => []
  | w :: ws, bs => (bs.take w).reverse ++ swapWords ws (bs.drop w)

/-- the `n` elements of `s` from one-based position `start` on -/
def field {α : Type} (s : List α) (start n : Nat) : List α := (s.drop (start - 1)).take n

/-- The fields a BIT_COLUMN definition declares, as (one-based start, size). -/
inductive Declares : BitDef → List (Nat × Nat) → Prop
  | plain {nm ib : _} {s b : Nat} : Declares ⟨nm, none, ib, some (s : Int), some (b : Int)⟩ [(s, b)]
  | items {nm bs : _} {s b n : Nat} : 0 < n →
      Declares ⟨nm, some (n : Int), some (b : Int), some (s : Int), bs⟩
        ((List.range n).map (fun i => (s + i * b, b)))

end Verif.Bits.Spec
