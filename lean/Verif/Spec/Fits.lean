/-
Specification of FITS files: the names of HDUs, headers, and where things are.
-/
import Verif.Model.Fits

namespace Verif.Fits.Spec
open Verif.Py Verif.Fits

/-- HDU number `i` of a file with HDUs of these names is listed as `n`: by its own name if no other HDU has it,
otherwise by that name, an underscore and the number of HDUs before it that have the same name. -/
def ListedAs (names : List Str) (i : Nat) (n : Str) : Prop :=
  ∃ x, names[i]? = some x ∧
    ((names.count x = 1 ∧ n = x) ∨ (1 < names.count x ∧ n = x ++ c!"_" ++ natStr ((names.take i).count x)))

/-- HDU `i` is listed before HDU `j`: its name appears earlier in the file, or they have the same name and it comes first. -/
def Before (names : List Str) (i j : Nat) : Prop :=
  ∃ x y, names[i]? = some x ∧ names[j]? = some y ∧
    (names.idxOf x < names.idxOf y ∨ (x = y ∧ i < j))

/-- no two HDUs are listed by the same name, none is listed as the header of another, and none that is
numbered has HEADER in its name -/
structure Clean (names : List Str) : Prop where
  distinct : ∀ i j n, ListedAs names i n → ListedAs names j n → i = j
  noHeader : ∀ i j n m, ListedAs names i n → ListedAs names j m → n ≠ m ++ c!"_HEADER"
  numbered : ∀ i n, ListedAs names i n → n ∉ names → ¬ c!"HEADER" <:+: n

/-- what is shown of a card: keyword and value (None for a card without one, text for anything that is not text, a number or a
truth value), and the comment, if there is one, under the keyword followed by "_comment"; nothing for a card without
a keyword or one that cannot be read -/
def shown : Card → Header
  | .bad => []
  | .good key val com =>
    if key = [] then []
    else
      let v : Item := match val with
        | .text s => .text s
        | .int n => .int n
        | .real b => .real b
        | .bool b => .bool b
        | .undefined => .none
        | .other s => .text s
      if com = [] then [(key, v)] else [(key, v), (key ++ c!"_comment", .text com)]

/-- a header, card by card -/
def header (cards : List Card) : Header := cards.flatMap shown

variable {B : Type}

/-- the data of an HDU; an empty array if it has none -/
def data (h : Hdu B) : Obj B := (h.body.map Obj.body).getD .empty

/-- the HDUs follow each other in the file: a header has some length, and the next one begins where the data end or later -/
def Placed (f : File B) : Prop :=
  (∀ h ∈ f.hdus, h.hdrLoc < h.datLoc) ∧ f.hdus.Pairwise (fun a b => a.datLoc ≤ b.hdrLoc)

/-- the structure is a header that ends where the data begin -/
def EndsAt (start : Int) (s : Struct) : Prop := s.isHeader = true ∧ ∃ n, s.length = some n ∧ s.offset + n = start

/-- with underscores for spaces -/
def underscored (s : Str) : Str := s.map (fun c => if c = ' ' then '_' else c)

end Verif.Fits.Spec
