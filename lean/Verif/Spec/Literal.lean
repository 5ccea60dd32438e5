/-
Specification of radix integers and quantities in PVL labels.
-/
import Verif.Model.Literal
import Mathlib.Data.List.Forall2

namespace Verif.Literal.Spec

/-- `c` is a digit of value `d`: `0`-`9`, then letters of either case. -/
def DigitOf (c : Char) (d : Nat) : Prop :=
  (d < 10 ∧ c.toNat = '0'.toNat + d) ∨
  (10 ≤ d ∧ d < 36 ∧ (c.toNat = 'a'.toNat + (d - 10) ∨ c.toNat = 'A'.toNat + (d - 10)))

/-- The number written by digits `ds` (most significant first) in base `b`. -/
def value (b : Nat) : List Nat → Nat
  | [] => 0
  | d :: ds => d * b ^ ds.length + value b ds

/-- `s` writes the natural number `n` in base `b`. -/
def Numeral (b : Nat) (s : Str) (n : Nat) : Prop :=
  ∃ ds, List.Forall₂ DigitOf s ds ∧ ds ≠ [] ∧ (∀ d ∈ ds, d < b) ∧ value b ds = n

/-- `s` writes the integer `n` in base `b`, with an optional sign. -/
def SignedNumeral (b : Nat) (s : Str) (n : Int) : Prop :=
  (∃ m, Numeral b s m ∧ n = m) ∨ (∃ t m, s = '+' :: t ∧ Numeral b t m ∧ n = m) ∨
  (∃ t m, s = '-' :: t ∧ Numeral b t m ∧ n = -(m : Int))

end Verif.Literal.Spec

namespace Verif.Literal.Spec
open Verif.Py

/-- `B#digits#`, a PVL radix integer of value `n`. The base is written with one or two digits. -/
def RadixText (s : Str) (n : Int) : Prop :=
  ∃ (b : Nat) (base digits : Str), 2 ≤ b ∧ b ≤ 36 ∧ base.length ≤ 2 ∧ Numeral 10 base b ∧
    SignedNumeral b digits n ∧ s = base ++ '#' :: (digits ++ ['#'])

/-- A decimal number as it occurs in quantities: digits, points and minus signs, optionally an
exponent. -/
def NumText (v : Str) : Prop :=
  ∃ w ex : Str, v = w ++ ex ∧ w ≠ [] ∧ (∀ c ∈ w, ('0' ≤ c ∧ c ≤ '9') ∨ c = '.' ∨ c = '-') ∧
    (ex = [] ∨ ∃ e ds, (e = 'e' ∨ e = 'E') ∧ ds ≠ [] ∧ (∀ c ∈ ds, '0' ≤ c ∧ c ≤ '9') ∧
      (ex = e :: ds ∨ ex = e :: '-' :: ds))

/-- ` 12.5 <km> `: a number `v` with units `u`. -/
def QuantityText (s v u : Str) : Prop :=
  ∃ pre mid post : Str, s = pre ++ v ++ mid ++ '<' :: (u ++ '>' :: post) ∧ NumText v ∧
    (∀ c ∈ pre ++ mid ++ post, c = ' ') ∧ '\n' ∉ u

end Verif.Literal.Spec

namespace Verif.Literal.Spec
/-- A radix integer with blanks around it. -/
def PaddedRadix (p : Str) (n : Int) : Prop :=
  ∃ a i b : Str, p = a ++ i ++ b ∧ (∀ x ∈ a ++ b, x = ' ') ∧ RadixText i n
end Verif.Literal.Spec
