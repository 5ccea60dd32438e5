/-
Shared vocabulary for the models: Python strings as lists of characters, Python exceptions as
values, and the handful of `str` methods the modelled code calls.
-/

namespace Verif

/-- Python `str`: a list of code points. -/
abbrev Str := List Char

open Lean in
/-- `c!"abc"` is the literal list `['a', 'b', 'c']` (so the kernel never has to decode UTF-8). -/
macro:max "c!" s:str : term => do
  let cs := s.getString.toList
  let lits ← cs.mapM (fun c => `($(Syntax.mkCharLit c)))
  `(([$(lits.toArray),*] : List Char))

/-- The Python exceptions the models raise. -/
inductive PyErr
  | valueError | keyError | typeError | indexError | notImplemented | fileNotFound
  | syntaxError | attributeError | alreadyLoaded | ioError | invalidLabel | zeroDivision
  | recursionError | unicodeError | overflowError | runtimeWarning
  deriving DecidableEq, Repr

namespace Py

/-- `str.isspace` for one code point (CPython's full table; used by `str.strip()`). -/
def isSpace (c : Char) : Bool :=
  let n := c.toNat
  (9 ≤ n && n ≤ 13) || (28 ≤ n && n ≤ 32) || n == 0x85 || n == 0xa0 || n == 0x1680 ||
  (0x2000 ≤ n && n ≤ 0x200a) || n == 0x2028 || n == 0x2029 || n == 0x202f || n == 0x205f ||
  n == 0x3000

/-- `str.lstrip()` -/
def lstrip (s : Str) : Str := s.dropWhile isSpace

/-- `str.rstrip()` -/
def rstrip (s : Str) : Str := (s.reverse.dropWhile isSpace).reverse

/-- `str.strip()` -/
def strip (s : Str) : Str := rstrip (lstrip s)

/-- `str.startswith(p)` -/
def startsWith (s p : Str) : Bool := p.isPrefixOf s

/-- `str.endswith(p)` -/
def endsWith (s p : Str) : Bool := p.isSuffixOf s

/-- `sub in s` for strings. -/
def contains (s sub : Str) : Bool :=
  match s with
  | [] => sub.isEmpty
  | c :: cs => sub.isPrefixOf (c :: cs) || contains cs sub

/-- `s.split(sep)` for a one-character separator. -/
def splitOn (sep : Char) : Str → List Str
  | [] => [[]]
  | c :: cs =>
    if c = sep then [] :: splitOn sep cs
    else match splitOn sep cs with
      | [] => [[c]]      -- unreachable: `splitOn` is never empty
      | w :: ws => (c :: w) :: ws

/-- `sep.join(parts)` -/
def join (sep : Str) : List Str → Str
  | [] => []
  | [w] => w
  | w :: ws => w ++ sep ++ join sep ws

/-- `str.upper` on one code point. Simplification: only ASCII letters change case. -/
def upperC (c : Char) : Char :=
  if 'a'.toNat ≤ c.toNat ∧ c.toNat ≤ 'z'.toNat then Char.ofNat (c.toNat - 32) else c

/-- `str.lower` on one code point. Simplification: only ASCII letters change case. -/
def lowerC (c : Char) : Char :=
  if 'A'.toNat ≤ c.toNat ∧ c.toNat ≤ 'Z'.toNat then Char.ofNat (c.toNat + 32) else c

/-- `str.upper()` -/
def upper (s : Str) : Str := s.map upperC

/-- `str.lower()` -/
def lower (s : Str) : Str := s.map lowerC

/-- `str(n)` for a natural number: its decimal digits. -/
def natStr (n : Nat) : Str := Nat.toDigits 10 n

end Py
end Verif
