/-
Model of the value interpreter of PVL labels: `pdr/parselabel/pds3.py` 173-204 and 266-332.
-/
import Verif.Model.Pvl
import Mathlib.Data.Rat.Defs

namespace Verif.Literal
open Verif.Py

/-! ### Python's `int(text, base)` -/

/-- The value of an alphanumeric digit (`_PyLong_DigitValue`): 0-9, a-z, A-Z. Simplification:
non-ASCII decimal digits, which CPython also accepts, are rejected here. -/
def digitVal (c : Char) : Option Nat :=
  let n := c.toNat
  if 48 ≤ n ∧ n ≤ 57 then some (n - 48)
  else if 97 ≤ n ∧ n ≤ 122 then some (n - 87)
  else if 65 ≤ n ∧ n ≤ 90 then some (n - 55)
  else none

/-- The digit loop of `PyLong_FromString`: `acc` so far, `u` if the previous character was an
underscore or there was none (so empty digit strings, leading, doubled and trailing underscores are
errors). -/
def digitsVal (base : Nat) : Nat → Bool → Str → Option Nat
  | acc, u, [] => if u then none else some acc
  | acc, u, c :: cs =>
    if c = '_' then (if u then none else digitsVal base acc true cs)
    else match digitVal c with
      | none => none
      | some d => if d < base then digitsVal base (acc * base + d) false cs else none

/-- `0x`/`0o`/`0b` prefix: the base it announces and the text after it. -/
def radixPrefix (s : Str) : Option (Nat × Str) :=
  match s with
  | '0' :: c :: rest =>
    if c = 'x' ∨ c = 'X' then some (16, rest)
    else if c = 'o' ∨ c = 'O' then some (8, rest)
    else if c = 'b' ∨ c = 'B' then some (2, rest)
    else none
  | _ => none

/-- The unsigned part of `int(text, base)`, after whitespace and sign. -/
def unsignedInt (base : Nat) (s : Str) : Option Nat :=
  let afterPrefix (b : Nat) (rest : Str) : Option Nat :=
    digitsVal b 0 true (match rest with | '_' :: r => r | r => r)
  match radixPrefix s with
  | some (b, rest) =>
    if base = 0 ∨ base = b then afterPrefix b rest
    else digitsVal base 0 true s
  | none =>
    if base = 0 then
      -- no prefix: decimal, but a leading zero is only allowed for zero itself
      match digitsVal 10 0 true s with
      | some n => if s.head? = some '0' ∧ n ≠ 0 then none else some n
      | none => none
    else digitsVal base 0 true s

/-- `int(text, base)`: `none` is ValueError. -/
def pyInt (s : Str) (base : Int) : Option Int :=
  if base ≠ 0 ∧ (base < 2 ∨ 36 < base) then none
  else
    match strip s with
    | '-' :: r => (unsignedInt base.toNat r).map (fun n => -(n : Int))
    | '+' :: r => (unsignedInt base.toNat r).map (fun n => (n : Int))
    | r => (unsignedInt base.toNat r).map (fun n => (n : Int))

/-- pds3.py 266-275 `parse_non_base_10`; both ValueErrors become SyntaxError. -/
def parseNonBase10 (text : Str) : Except PyErr Int :=
  match splitOn '#' text.dropLast with
  | [base, number] =>
    match pyInt base 10 with
    | none => .error .syntaxError
    | some b =>
      match pyInt number b with
      | none => .error .syntaxError
      | some n => .ok n
  | _ => .error .syntaxError

/-! ### `literalize_pvl` -/

/-- Interpreted values. `real q` is the float nearest to `q` (infinity if that is too large). `other n` stands for any
further Python object that `ast.literal_eval` may return (bytes, complex numbers, dicts, ...). Sets keep the written
order here (Python sets do not). -/
inductive Val where
  | int (n : Int)
  | str (s : Str)
  | real (q : ℚ)
  | none
  | bool (b : Bool)
  | list (xs : List Val)
  | tuple (xs : List Val)
  | set (xs : List Val)
  | quantity (value units : Val)
  | other (n : Nat)

/-- `s.strip(chars)` for an explicit set of characters -/
def stripChars (chars : List Char) (s : Str) : Str :=
  ((s.dropWhile (· ∈ chars)).reverse.dropWhile (· ∈ chars)).reverse

/-- `re.match(r'.*\d{1,2}#', obj)` (pds3.py 295): some `#` directly after a digit, with no line feed
before it. (ASCII digits only.) -/
def radixAhead : Str → Bool
  | a :: b :: rest =>
    if a = '\n' then false
    else (('0' ≤ a ∧ a ≤ '9') ∧ b = '#') || radixAhead (b :: rest)
  | _ => false

/-- the comprehension `map(parse_non_base_10, ...)`: first error wins -/
def parseAll : List Str → Except PyErr (List Val)
  | [] => .ok []
  | s :: ss =>
    match parseNonBase10 s with
    | .error e => .error e
    | .ok n => match parseAll ss with
      | .error e => .error e
      | .ok ns => .ok (.int n :: ns)

/-- pds3.py 290-300 `parse_unusual_collection` with 278-287 `parse_non_base_10_collection` -/
def parseUnusualCollection (obj : Str) : Val :=
  let class_ : List Val → Val := if startsWith obj c!"{" then .set else .tuple
  let inner := stripChars ['{', '}', '(', ')'] obj
  let plain := class_ ((splitOn ',' inner).map (fun s => .str (stripChars [' '] s)))
  if radixAhead obj then
    match parseAll (splitOn ',' (inner.filter (· ≠ ' '))) with
    | .ok ns => class_ ns
    | .error _ => plain       -- parse_non_base_10 only raises SyntaxError
  else plain

/-- `\d|\.|-` -/
def isNumChar (c : Char) : Bool := ('0' ≤ c && c ≤ '9') || c = '.' || c = '-'

/-- the optional group `([eE]-?\d+)?` at the start of `s`: the matched text -/
def exponent (s : Str) : Str :=
  match s with
  | e :: rest =>
    if e = 'e' ∨ e = 'E' then
      match rest with
      | '-' :: r =>
        let ds := r.takeWhile (fun c => '0' ≤ c && c ≤ '9')
        if ds.isEmpty then [] else e :: '-' :: ds
      | r =>
        let ds := r.takeWhile (fun c => '0' ≤ c && c ≤ '9')
        if ds.isEmpty then [] else e :: ds
    else []
  | [] => []

/-- `re.search(PVL_QUANTITY_VALUE, obj).group()` (pds3.py 27, 173); `none` if nothing matches. -/
def findQuantityValue (s : Str) : Option Str :=
  match s with
  | [] => none
  | c :: cs =>
    if isNumChar c then
      some ((c :: cs).takeWhile isNumChar ++ exponent ((c :: cs).dropWhile isNumChar))
    else if startsWith (c :: cs) c!"NULL" then some c!"NULL"
    else if startsWith (c :: cs) c!"UNK" then some c!"UNK"
    else if startsWith (c :: cs) c!"N/A" then some c!"N/A"
    else findQuantityValue cs

/-- The longest prefix of `s` that ends before a `>` and has no line feed: what `(.*)>` captures. -/
def greedyToGt (s : Str) : Option Str :=
  match s with
  | [] => none
  | c :: cs =>
    if c = '\n' then none
    else match greedyToGt cs with
      | some r => some (c :: r)
      | none => if c = '>' then some [] else none

/-- `re.search(r"<(.*)>", obj).group(1)` (pds3.py 28, 174) -/
def findQuantityUnits (s : Str) : Option Str :=
  match s with
  | [] => none
  | c :: cs =>
    if c = '<' then
      match greedyToGt cs with
      | some r => some r
      | none => findQuantityUnits cs
    else findQuantityUnits cs

/-- the list comprehension of `parse_pvl_quantity_statement`: first error wins -/
def mapErr (f : Str → Except PyErr Val) : List Str → Except PyErr (List Val)
  | [] => .ok []
  | s :: ss =>
    match f s with
    | .error e => .error e
    | .ok v => match mapErr f ss with
      | .error e => .error e
      | .ok vs => .ok (v :: vs)

/-- pds3.py 173-180 `parse_pvl_quantity_object`, with the `AttributeError` of a failed search
caught as in 195-199 (the object is kept as text). `lit` is `literalize_pvl`. -/
def quantityObject (lit : Str → Except PyErr Val) (obj : Str) : Except PyErr Val :=
  match findQuantityValue obj with
  | none => .ok (.str obj)
  | some v =>
    match lit v with
    | .error .attributeError => .ok (.str obj)
    | .error e => .error e
    | .ok v' =>
      match findQuantityUnits obj with
      | none => .ok (.str obj)
      | some u =>
        match lit u with
        | .error .attributeError => .ok (.str obj)
        | .error e => .error e
        | .ok u' => .ok (.quantity v' u')

/-- pds3.py 183-204 `parse_pvl_quantity_statement` -/
def quantityStatement (lit : Str → Except PyErr Val) (statement : Str) : Except PyErr Val :=
  match mapErr (fun obj => if '<' ∈ obj ∧ '>' ∈ obj then quantityObject lit obj else lit obj)
      (splitOn ',' (stripChars ['(', ')'] statement)) with
  | .error e => .error e
  | .ok [v] => .ok v
  | .ok vs => .ok (.tuple vs)

/-- the handler of pds3.py 323-331 for SyntaxError and ValueError -/
def literalFallback (lit : Str → Except PyErr Val) (obj : Str) : Except PyErr Val :=
  if '<' ∈ obj ∧ '>' ∈ obj then
    match quantityStatement lit obj with
    | .ok v => .ok v
    | .error .syntaxError => .ok (.str obj)
    | .error .valueError => .ok (.str obj)
    | .error .indexError => .ok (.str obj)
    | .error e => .error e
  else match obj with
    | [] => .ok (.str obj)            -- obj[0] raises IndexError, swallowed
    | c :: _ => if c = '(' ∨ c = '{' then .ok (parseUnusualCollection obj) else .ok (.str obj)

/-- pds3.py 303-332 `literalize_pvl` on a string. The recursion (through quantities) is on shorter
strings; `fuel` bounds it, and `literalizePvl` supplies enough (theorem `literalize_fuel`). `litEval`
is `ast.literal_eval`, here an arbitrary partial function (see Model/PyLit). -/
def literalize (litEval : Str → Except PyErr Val) : Nat → Str → Except PyErr Val
  | 0, _ => .error .recursionError
  | fuel + 1, obj =>
    let first : Except PyErr Val :=
      if !startsWith obj c!"\"" && ('#' ∈ (obj.drop 1).take 2) then
        match parseNonBase10 obj with
        | .ok n => .ok (.int n)
        | .error e => .error e
      else litEval obj
    match first with
    | .ok v => .ok v
    | .error .syntaxError => literalFallback (literalize litEval fuel) obj
    | .error .valueError => literalFallback (literalize litEval fuel) obj
    | .error e => .error e

/-- pds3.py 303-332 `literalize_pvl` -/
def literalizePvl (litEval : Str → Except PyErr Val) (obj : Str) : Except PyErr Val := literalize litEval (obj.length + 1) obj

end Verif.Literal
