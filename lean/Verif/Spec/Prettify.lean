/-
Specification of printing metadata.
-/
import Verif.Model.Prettify

namespace Verif.Prettify.Spec
open Verif.Py Verif.Pvl

variable {α : Type}

/-- the characters of a text that are not white space -/
def ink (s : Str) : Str := s.filter (fun c => !isSpace c)

/-- only white space -/
def Blank (s : Str) : Prop := ∀ c ∈ s, isSpace c = true

mutual
/-- a value on one line -/
def lineT (face : α → Face) : Tree α → Str
  | .leaf a => (face a).text
  | .node kids => c!"{" ++ line face kids ++ c!"}"

/-- the entries of a label on one line: name, colon, value, comma -/
def line (face : α → Face) : MDict α → Str
  | [] => []
  | (k, v) :: rest => k ++ c!": " ++ lineT face v ++ c!", " ++ line face rest
end

/-- the label has this entry inside `d` blocks -/
inductive Entry : Nat → Str → Tree α → MDict α → Prop
  | here {k : Str} {v : Tree α} {m : MDict α} : (k, v) ∈ m → Entry 0 k v m
  | inside {d : Nat} {k name : Str} {v : Tree α} {kids m : MDict α} :
      (name, .node kids) ∈ m → Entry d k v kids → Entry (d + 1) k v m

/-- a string of more than 70 characters -/
def Long (face : α → Face) (a : α) (s : Str) : Prop := face a = .str s ∧ 70 < s.length

/-- What is known of `textwrap.wrap(text, width)`: the characters that are not white space stay, in order, and
text that is only white space gives no line. -/
def Wraps (wrap : Str → Nat → List Str) : Prop :=
  ∀ s w, 0 < w → ink (wrap s w).flatten = ink s ∧ (Blank s → wrap s w = [])

end Verif.Prettify.Spec
