/-
Specification of what the values in PDS3 labels mean.
-/
import Verif.Spec.Literal
import Verif.Model.PyLit

namespace Verif.Value.Spec
open Verif.Py Verif.Literal Verif.Literal.Spec

/-! ### numbers and texts -/

/-- `s` writes the natural number `n` with decimal digits, without leading zeros (unless it is 0). Python reads at most 4300 digits. -/
def Whole (s : Str) (n : Nat) : Prop := Numeral 10 s n ∧ (s.head? = some '0' → n = 0) ∧ s.length ≤ 4300

/-- an exponent: `E5`, `e+5`, `E-05` -/
inductive Exponent : Str → Int → Prop
  | plain {m : Char} {s : Str} {n : Nat} : m = 'e' ∨ m = 'E' → Numeral 10 s n → Exponent (m :: s) n
  | plus {m : Char} {s : Str} {n : Nat} : m = 'e' ∨ m = 'E' → Numeral 10 s n → Exponent (m :: '+' :: s) n
  | minus {m : Char} {s : Str} {n : Nat} : m = 'e' ∨ m = 'E' → Numeral 10 s n → Exponent (m :: '-' :: s) (-(n : Int))

/-- decimal digits, or nothing -/
def Digits (s : Str) : Prop := ∀ c ∈ s, '0'.toNat ≤ c.toNat ∧ c.toNat ≤ '9'.toNat

/-- a real number without sign: `1.5`, `1.`, `.5`, `1.5E3`, `15E2` -/
inductive Decimal : Str → ℚ → Prop
  | point {ip fp : Str} {n : Nat} : Digits ip → Digits fp → Numeral 10 (ip ++ fp) n →
      Decimal (ip ++ '.' :: fp) (n * 10 ^ (-(fp.length : Int)))
  | pointExp {ip fp ex : Str} {n : Nat} {e : Int} : Digits ip → Digits fp → Numeral 10 (ip ++ fp) n → Exponent ex e →
      Decimal (ip ++ '.' :: fp ++ ex) (n * 10 ^ (e - (fp.length : Int)))
  | wholeExp {ip ex : Str} {n : Nat} {e : Int} : Numeral 10 ip n → Exponent ex e → Decimal (ip ++ ex) (n * 10 ^ e)

/-- numbers, with or without sign -/
inductive Number : Str → Val → Prop
  | int {s : Str} {n : Nat} : Whole s n → Number s (.int n)
  | plusInt {s : Str} {n : Nat} : Whole s n → Number ('+' :: s) (.int n)
  | minusInt {s : Str} {n : Nat} : Whole s n → Number ('-' :: s) (.int (-(n : Int)))
  | real {s : Str} {q : ℚ} : Decimal s q → Number s (.real q)
  | plusReal {s : Str} {q : ℚ} : Decimal s q → Number ('+' :: s) (.real q)
  | minusReal {s : Str} {q : ℚ} : Decimal s q → Number ('-' :: s) (.real (-q))

/-- texts in quotes (without the same quotes, backslashes and line breaks in them) -/
inductive Quoted : Str → Val → Prop
  | mk {q : Char} {t : Str} : q = '"' ∨ q = '\'' → q ∉ t → '\\' ∉ t → '\n' ∉ t → '\r' ∉ t → Quoted (q :: (t ++ [q])) (.str t)

/-- one number or text -/
def Scalar (s : Str) (v : Val) : Prop := Number s v ∨ Quoted s v

/-! ### sequences and sets -/

/-- blanks and tabs -/
def Blanks (s : Str) : Prop := ∀ c ∈ s, c = ' ' ∨ c = '\t'

/-- with blanks around it -/
def Padded (P : Str → Val → Prop) (p : Str) (v : Val) : Prop := ∃ a s b, p = a ++ (s ++ b) ∧ Blanks a ∧ Blanks b ∧ P s v

mutual
/-- there is no set in it -/
def SetFree : Val → Prop
  | .set _ => False
  | .tuple vs => AllSetFree vs
  | .list vs => AllSetFree vs
  | .quantity a b => SetFree a ∧ SetFree b
  | _ => True
/-- … in them -/
def AllSetFree : List Val → Prop
  | [] => True
  | v :: vs => SetFree v ∧ AllSetFree vs
end

/-- scalars; sequences of two or more values and sets of one or more values in brackets and separated by commas -/
inductive Step (P : Str → Val → Prop) : Str → Val → Prop
  | scalar {s : Str} {v : Val} : Scalar s v → Step P s v
  | seq {parts : List Str} {vals : List Val} : 2 ≤ parts.length → List.Forall₂ (Padded P) parts vals →
      Step P ('(' :: (join [','] parts ++ [')'])) (.tuple vals)
  | set {parts : List Str} {vals : List Val} : 1 ≤ parts.length → List.Forall₂ (Padded P) parts vals → AllSetFree vals →
      Step P ('{' :: (join [','] parts ++ ['}'])) (.set vals)

/-- numbers, texts, and sequences and sets of them, nested up to `d` deep (sets not in sets) -/
def Literal : Nat → Str → Val → Prop
  | 0 => Scalar
  | d + 1 => Step (Literal d)

/-! ### other texts -/

/-- a letter or an underscore -/
def Letter (c : Char) : Prop :=
  ('A'.toNat ≤ c.toNat ∧ c.toNat ≤ 'Z'.toNat) ∨ ('a'.toNat ≤ c.toNat ∧ c.toNat ≤ 'z'.toNat) ∨ c = '_'

/-- `MARS`, `L_0B`, ...: letters, digits and underscores, not beginning with a digit. Not the names of Python's constants. -/
def Word (s : Str) : Prop :=
  (∃ c r, s = c :: r ∧ Letter c ∧ ∀ x ∈ r, Letter x ∨ ('0'.toNat ≤ x.toNat ∧ x.toNat ≤ '9'.toNat)) ∧
  s ≠ c!"None" ∧ s ≠ c!"True" ∧ s ≠ c!"False"

/-- text that begins with a word other than `set`, which is followed by something else than a quote: `N/A`, `km/s`, `A, B, C`, ... -/
def Wordy (s : Str) : Prop :=
  ∃ w r, s = w ++ r ∧ Word w ∧ w ≠ c!"set" ∧
    ∀ c, r.head? = some c → ¬ Letter c ∧ ¬ ('0'.toNat ≤ c.toNat ∧ c.toNat ≤ '9'.toNat) ∧ c.toNat < 128 ∧ c ≠ '"' ∧ c ≠ '\''

/-- dates and times: `1990-10-12`, `1990-285`, either followed by `T` and anything else, `12:30` followed by anything else -/
inductive Date : Str → Prop
  | day {y m d : Str} {a b c : Nat} : Numeral 10 y a → Numeral 10 m b → Numeral 10 d c → Date (y ++ '-' :: (m ++ '-' :: d))
  | doy {y d : Str} {a b : Nat} : Numeral 10 y a → Numeral 10 d b → Date (y ++ '-' :: d)
  | dayT {y m d r : Str} {a b c : Nat} : Numeral 10 y a → Numeral 10 m b → Numeral 10 d c →
      Date (y ++ '-' :: (m ++ '-' :: (d ++ 'T' :: r)))
  | doyT {y d r : Str} {a b : Nat} : Numeral 10 y a → Numeral 10 d b → Date (y ++ '-' :: (d ++ 'T' :: r))
  | time {h r : Str} {a : Nat} : Numeral 10 h a → Date (h ++ ':' :: r)

/-- `#` as second or third character makes pdr look for a radix integer (unless the text begins with `"`) -/
def NoRadix (s : Str) : Prop := s.head? = some '"' ∨ '#' ∉ (s.drop 1).take 2

/-- What the value of a parameter in a label means. (Sequences of radix integers or of words and quantities: see below.) -/
inductive Denotes : Str → Val → Prop
  | literal {s : Str} {v : Val} : Literal 200 s v → NoRadix s → Denotes s v
  | radix {s : Str} {n : Int} : RadixText s n → Denotes s (.int n)
  | wordy {s : Str} : Wordy s → NoRadix s → ¬ ('<' ∈ s ∧ '>' ∈ s) → Denotes s (.str s)
  | date {s : Str} : Date s → NoRadix s → ¬ ('<' ∈ s ∧ '>' ∈ s) → Denotes s (.str s)

/-- `MARS`, `N/A`, `HIGH-RES`, ...: words with slashes or signs between them -/
inductive Term : Str → Prop
  | word {w : Str} : Word w → Term w
  | more {s w : Str} {c : Char} : Term s → c = '/' ∨ c = '-' ∨ c = '+' ∨ c = '*' → Word w → Term (s ++ c :: w)

/-- the characters after a backslash in Python's strings, and what they stand for: `\\`, `\'`, `\"`, and BEL, BS, FF, LF, CR, TAB, VT -/
def escapes : List (Char × Char) :=
  [('\\', '\\'), ('\'', '\''), ('"', '"'), ('a', Char.ofNat 7), ('b', Char.ofNat 8), ('f', Char.ofNat 12), ('n', Char.ofNat 10), ('r', Char.ofNat 13),
   ('t', Char.ofNat 9), ('v', Char.ofNat 11)]

/-- only spaces -/
def Spaces (s : Str) : Prop := ∀ c ∈ s, c = ' '

/-- `p` is the text `s` with spaces around it -/
def Spaced (p s : Str) : Prop := ∃ a b, p = a ++ (s ++ b) ∧ Spaces a ∧ Spaces b

/-- brackets of sequences or of sets -/
def Brackets (o c : Char) : Prop := (o = '(' ∧ c = ')') ∨ (o = '{' ∧ c = '}')

/-- a sequence or a set -/
def collection (o : Char) (vals : List Val) : Val := if o = '{' then .set vals else .tuple vals

/-- a number (without plus signs) and units in angle brackets, with spaces around both: ` 12.5 <km> ` -/
inductive Quantity : Str → Val → Prop
  | mk {a s m u b : Str} {v x : Val} : Spaces a → Spaces m → Spaces b → Number s v → '+' ∉ s → Denotes u x → '\n' ∉ u →
      Quantity (a ++ (s ++ (m ++ '<' :: (u ++ '>' :: b)))) (.quantity v x)

/-- parts of sequences with quantities: quantities, numbers and texts, and words, to which spaces around them belong -/
inductive Part : Str → Val → Prop
  | quantity {s : Str} {v : Val} : Quantity s v → Part s v
  | scalar {s : Str} {v : Val} : Padded Scalar s v → ¬ ('<' ∈ s ∧ '>' ∈ s) → Part s v
  | term {p s : Str} : Spaced p s → Term s → Part p (.str p)

end Verif.Value.Spec
