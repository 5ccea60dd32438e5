/-
Specification of numbers written in a text, one after the other.
-/
import Verif.Model.Py
import Mathlib.Algebra.Order.Field.Rat

namespace Verif.AsciiArray.Spec
open Verif.Py

/-- a decimal digit as a character -/
def digitChar (d : Fin 10) : Char := Char.ofNat (48 + d.val)

/-- A number in the plain notation: a sign or none, one or more digits, and none or a decimal point with any digits after it. -/
structure Numeral where
  sign : Option Bool            -- `some true` is `-`, `some false` is `+`
  first : Fin 10
  whole : List (Fin 10)
  frac : Option (List (Fin 10))

/-- a list of digits as a number, the most significant first -/
def number : List (Fin 10) → Nat
  | [] => 0
  | d :: ds => d.val * 10 ^ ds.length + number ds

def signText : Option Bool → Str
  | none => []
  | some true => ['-']
  | some false => ['+']

def fracText : Option (List (Fin 10)) → Str
  | none => []
  | some ds => '.' :: ds.map digitChar

/-- how it is written -/
def Numeral.text (n : Numeral) : Str :=
  signText n.sign ++ digitChar n.first :: (n.whole.map digitChar ++ fracText n.frac)

/-- the number it stands for -/
def Numeral.value (n : Numeral) : ℚ :=
  (if n.sign = some true then -1 else 1) *
    ((number (n.first :: n.whole) : ℚ) + (number (n.frac.getD []) : ℚ) / 10 ^ (n.frac.getD []).length)

/-- spaces, tabs, line ends and commas -/
def Blank (s : Str) : Prop := ∀ c ∈ s, c ∈ [' ', '\t', '\n', '\r', ',']

/-- texts with something between them: `lead`, then each text followed by its separator -/
def layout (lead : Str) (xs : List (Str × Str)) : Str :=
  lead ++ xs.flatMap (fun p => p.1 ++ p.2)

/-- separators are blanks, and there is one after every text but the last -/
structure Laid (lead : Str) (xs : List (Str × Str)) : Prop where
  lead : Blank lead
  seps : ∀ p ∈ xs, Blank p.2
  between : ∀ p ∈ xs.dropLast, p.2 ≠ []

/-- the numbers `ns`, with the separators `seps` after them -/
def numbers (ns : List Numeral) (seps : List Str) : List (Str × Str) := (ns.map Numeral.text).zip seps

end Verif.AsciiArray.Spec
