/-
Specification of PDS3 label files: what their text is, and what they say.
-/
import Verif.Spec.Value
import Verif.Spec.Pvl
import Verif.Spec.MultiDict
import Verif.Spec.Trim

namespace Verif.Label.Spec
open Verif.Py Verif.Literal Verif.Literal.Spec Verif.Value.Spec Verif.Pvl Verif.Pvl.Spec

/-! ### characters as bytes -/

/-- the bytes of a character in UTF-8 -/
def utf8Char (c : Char) : Bytes :=
  let n := c.toNat
  (if n < 0x80 then [n]
  else if n < 0x800 then [0xC0 + n / 64, 0x80 + n % 64]
  else if n < 0x10000 then [0xE0 + n / 4096, 0x80 + n / 64 % 64, 0x80 + n % 64]
  else [0xF0 + n / 262144, 0x80 + n / 4096 % 64, 0x80 + n / 64 % 64, 0x80 + n % 64]).map UInt8.ofNat

/-- the bytes of a text in UTF-8 -/
def utf8 (s : Str) : Bytes := s.flatMap utf8Char

/-- `Replaced b s`: `s` is the text of the bytes `b`, in which U+FFFD stands for one to three bytes wherever no character begins -/
inductive Replaced : Bytes → Str → Prop
  | nil : Replaced [] []
  | char {c : Char} {b : Bytes} {s : Str} : Replaced b s → Replaced (utf8Char c ++ b) (c :: s)
  | bad {x b : Bytes} {s : Str} : x ≠ [] → x.length ≤ 3 → (¬ ∃ c r, x ++ b = utf8Char c ++ r) → Replaced b s →
      Replaced (x ++ b) (Char.ofNat 0xFFFD :: s)

/-! ### text -/

/-- there is a `/*` in it -/
def HasComment (s : Str) : Prop := ∃ a b, s = a ++ '/' :: '*' :: b

/-- `Uncommented s t`: `t` is `s` without comments, which all end on the line on which they begin. (The comment and the first character
of the line end become a line feed.) -/
inductive Uncommented : Str → Str → Prop
  | none {s : Str} : ¬ HasComment s → Uncommented s s
  | comment {a body b b' : Str} {e : Char} : ¬ HasComment a → '\r' ∉ body → '\n' ∉ body → ¬ HasComment body → e = '\n' ∨ e = '\r' →
      Uncommented b b' → Uncommented (a ++ '/' :: '*' :: (body ++ e :: b)) (a ++ '\n' :: b')

/-- The text says what the tree says, the values of which are still texts: without comments, it consists of lines (with spaces around
them, and empty lines in between), which are a layout of the statements that write the tree down. -/
def Says (text : Str) (t : MDict Str) : Prop :=
  ∃ phys ls ss, Uncommented text (join c!"\n" phys) ∧ Physical phys ls ∧ Layouts ls ss ∧ Stated t ss

/-! ### values -/

/-- What the value of a parameter means: numbers, texts, words, dates and radix integers, sequences and sets of them, and quantities. -/
inductive Means : Str → Val → Prop
  | value {s : Str} {v : Val} : Denotes s v → Means s v
  | words {o c : Char} {parts ws : List Str} : Brackets o c → List.Forall₂ Spaced parts ws → ws ≠ [] → (∀ w ∈ ws, Term w) →
      Means (o :: (join [','] parts ++ [c])) (collection o (ws.map .str))
  | radixes {o c : Char} {parts : List Str} {ns : List Int} : Brackets o c → parts ≠ [] → List.Forall₂ PaddedRadix parts ns →
      Means (o :: (join [','] parts ++ [c])) (collection o (ns.map .int))
  | quantity {s : Str} {v : Val} : Quantity s v → ',' ∉ s → '#' ∉ s → Means s v
  | quantities {parts : List Str} {vals : List Val} : 2 ≤ parts.length → List.Forall₂ Part parts vals →
      (∃ p ∈ parts, ∃ v, Quantity p v) → (∀ p ∈ parts, ',' ∉ p ∧ '#' ∉ p) →
      Means ('(' :: (join [','] parts ++ [')'])) (.tuple vals)

/-! ### the part of a file that is the label -/

open Verif.Trim.Spec in
/-- `LabelPart f m p`: `p` is the beginning of the file `f` up to the first label ending, which is looked for in stretches of 51200 bytes (after
the first 20 bytes) as long as they begin before byte `20 + m`; or all of these stretches, if there is none. -/
inductive LabelPart (f : Bytes) (m : Int) : Bytes → Prop
  | ended {i e : Nat} : (∀ j < i, Absent Ending (window f j)) → ((51200 * i : Nat) : Int) < m → WindowEnd (window f i) e →
      LabelPart f m (f.take (20 + 51200 * i + e))
  | whole {n : Nat} : (∀ j : Nat, ((51200 * j : Nat) : Int) < m ↔ j < n) → (∀ j < n, Absent Ending (window f j)) →
      LabelPart f m (f.take (20 + 51200 * n))

/-- the names of Chang'e 1-3 products, whose labels are in GB 18030 -/
def ChangE (fn : Str) : Prop :=
  (∃ x ∈ [c!"CE1", c!"CE2", c!"CE3"], x <:+: fn) ∧
  ∃ x ∈ [c!".1A", c!".1B", c!".1C", c!".2A", c!".2B", c!".2C", c!".3A", c!".3B", c!".3C", c!".01", c!".02", c!".03"], x <:+: fn

/-- the names of Venus Express magnetometer products, whose labels are in Latin-1 -/
def VexMag (fn : Str) : Prop :=
  c!".TAB" <:+: fn ∧ c!"_DOY" <:+: fn ∧ (c!"MAG_" <:+: fn ∨ c!"BIO_" <:+: fn) ∧ c!"_V1" <:+: fn

/-- names of label and format files: something, then `.lbl` or `.fmt` in upper or lower case -/
def LabelName (fn : Str) : Prop :=
  ∃ dir name ext, fn = dir ++ name ++ ext ∧ (dir = [] ∨ ∃ d, dir = d ++ ['/']) ∧ '/' ∉ name ∧ name ≠ [] ∧
    (lower ext = c!".lbl" ∨ lower ext = c!".fmt")

end Verif.Label.Spec
