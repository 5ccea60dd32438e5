/-
Model of Python's `ast.literal_eval`, as used in `pdr/parselabel/pds3.py` 303-332, for texts of one line (values of labels
have no line feeds). This is library code (CPython 3.9-3.13: tokenizer, grammar of expressions, `Lib/ast.py`), modelled as far
as needed to say which texts are literals and what they mean; see the comments for what is left out.
-/
import Verif.Model.Literal

namespace Verif.PyLit
open Verif.Py Verif.Literal

/-! ### tokens -/

/-- numbers -/
inductive Lit
  | int (n : Int)
  | real (q : ℚ)
  | imag
  deriving DecidableEq

/-- tokens; `stop` is the end of the text. A character that is in no other token is an `op`. -/
inductive Tok
  | num (l : Lit)
  | text (s : Str)
  | bytes
  | name (s : Str)
  | ellipsis
  | op (c : Char)
  | stop
  deriving DecidableEq

/-- ASCII digits -/
def isDigit (c : Char) : Bool := decide (48 ≤ c.toNat) && decide (c.toNat ≤ 57)

/-- the first character of a name: letters, underscores, anything that is not ASCII -/
def isIdStart (c : Char) : Bool :=
  (decide (65 ≤ c.toNat) && decide (c.toNat ≤ 90)) || (decide (97 ≤ c.toNat) && decide (c.toNat ≤ 122)) || c == '_' || decide (128 ≤ c.toNat)

/-- further characters of a name -/
def isIdCont (c : Char) : Bool := isIdStart c || isDigit c

/-- digits with single underscores between them (`prev`: also before them): the digits, and what follows -/
def digitRun (ok : Char → Bool) : Bool → Str → Str × Str
  | prev, '_' :: d :: r => if prev && ok d then (d :: (digitRun ok true r).1, (digitRun ok true r).2) else ([], '_' :: d :: r)
  | _, c :: r => if ok c then (c :: (digitRun ok true r).1, (digitRun ok true r).2) else ([], c :: r)
  | _, [] => ([], [])

/-- the value of digits in base `b` -/
def natVal (b : Nat) (ds : Str) : Nat := ds.foldl (fun n c => n * b + (digitVal c).getD 0) 0

/-- a number must not run into a name or another number. (Python lets some keywords follow; the result is no literal.) -/
def finish (l : Lit) (rest : Str) : Option (Lit × Str) := if rest.head?.any isIdCont then none else some (l, rest)

/-- integers after `0x`, `0o`, `0b` -/
def radixNumber (b : Nat) (s : Str) : Option (Lit × Str) :=
  let p := digitRun (fun c => (digitVal c).any (fun d => decide (d < b))) true s
  if p.1.isEmpty then none else finish (.int (natVal b p.1)) p.2

/-- the digits of an exponent -/
def expDigits (sign : Int) (s : Str) : Option (Option Int × Str) :=
  let p := digitRun isDigit false s
  if p.1.isEmpty then none else some (some (sign * natVal 10 p.1), p.2)

/-- the exponent, if there is one; the outer `none` is an error -/
def exponentPart : Str → Option (Option Int × Str)
  | 'e' :: '+' :: r => expDigits 1 r
  | 'e' :: '-' :: r => expDigits (-1) r
  | 'e' :: r => expDigits 1 r
  | 'E' :: '+' :: r => expDigits 1 r
  | 'E' :: '-' :: r => expDigits (-1) r
  | 'E' :: r => expDigits 1 r
  | r => some (none, r)

/-- the end of a number: imaginary numbers end with `j` -/
def numberEnd (l : Lit) : Str → Option (Lit × Str)
  | 'j' :: r => finish .imag r
  | 'J' :: r => finish .imag r
  | r => finish l r

/-- the value of a decimal number with `ip` before and `fp` after its point -/
def decimalVal (ip fp : Str) (e : Int) : ℚ := (natVal 10 (ip ++ fp) : ℚ) * 10 ^ (e - fp.length)

/-- a decimal integer: no leading zeros (except for 0) and at most 4300 digits. With a `j`, neither matters. -/
def intEnd (ip : Str) (r : Str) : Option (Lit × Str) :=
  match r with
  | 'j' :: r => finish .imag r
  | 'J' :: r => finish .imag r
  | r =>
    if ip.head? = some '0' ∧ natVal 10 ip ≠ 0 then none
    else if 4300 < ip.length then none
    else finish (.int (natVal 10 ip)) r

/-- a decimal number -/
def decimalNumber (s : Str) : Option (Lit × Str) :=
  let i := digitRun isDigit false s
  match i.2 with
  | '.' :: r =>
    let f := digitRun isDigit false r
    match exponentPart f.2 with
    | none => none
    | some (e, r) => numberEnd (.real (decimalVal i.1 f.1 (e.getD 0))) r
  | r =>
    match exponentPart r with
    | none => none
    | some (some e, r) => numberEnd (.real (decimalVal i.1 [] e)) r
    | some (none, r) => intEnd i.1 r

/-- a number, at its first digit (or point) -/
def number (s : Str) : Option (Lit × Str) :=
  match s with
  | '0' :: c :: r =>
    if c = 'x' ∨ c = 'X' then radixNumber 16 r
    else if c = 'o' ∨ c = 'O' then radixNumber 8 r
    else if c = 'b' ∨ c = 'B' then radixNumber 2 r
    else decimalNumber s
  | _ => decimalNumber s

/-- the rest of a string up to its quote, and what follows -/
def scanQuote (q : Char) : Str → Option (Str × Str)
  | [] => none
  | c :: r =>
    if c = q then some ([], r)
    else if c = '\n' ∨ c = '\r' then none
    else if c = '\\' then
      match r with
      | [] => none
      | d :: r => (scanQuote q r).map (fun p => (c :: d :: p.1, p.2))
    else (scanQuote q r).map (fun p => (c :: p.1, p.2))

/-- … up to three quotes -/
def scanTriple (q : Char) : Str → Option (Str × Str)
  | [] => none
  | c :: r =>
    if c = q ∧ r.take 2 = [q, q] then some ([], r.drop 2)
    else if c = '\\' then
      match r with
      | [] => none
      | d :: r => (scanTriple q r).map (fun p => (c :: d :: p.1, p.2))
    else (scanTriple q r).map (fun p => (c :: p.1, p.2))

/-- `n` hexadecimal digits -/
def hexDigits (n : Nat) (s : Str) : Option (Nat × Str) :=
  if (s.take n).length = n ∧ (s.take n).all (fun c => (digitVal c).any (fun d => decide (d < 16))) then some (natVal 16 (s.take n), s.drop n)
  else none

/-- octal digits at the start, three at most -/
def octDigits (s : Str) : Str := (s.take 3).takeWhile (fun c => decide (48 ≤ c.toNat) && decide (c.toNat ≤ 55))

/-- backslash and one character -/
def simpleEscapes : List (Char × Char) :=
  [('\\', '\\'), ('\'', '\''), ('"', '"'), ('a', Char.ofNat 7), ('b', Char.ofNat 8), ('f', Char.ofNat 12), ('n', '\n'), ('r', '\r'),
   ('t', '\t'), ('v', Char.ofNat 11)]

/-- the escapes in a string. Unknown ones stay as they are. Simplifications: `\N{...}` is an error here; surrogates become NUL. -/
def unescape : Nat → Str → Option Str
  | _, [] => some []
  | 0, _ => none
  | n + 1, c :: r =>
    if c ≠ '\\' then (unescape n r).map (c :: ·)
    else match r with
      | [] => none
      | d :: t =>
        match simpleEscapes.lookup d with
        | some x => (unescape n t).map (x :: ·)
        | none =>
          if d = '\n' then unescape n t
          else if octDigits r ≠ [] then
            (unescape n (r.drop (octDigits r).length)).map (Char.ofNat (natVal 8 (octDigits r)) :: ·)
          else if d = 'x' then
            match hexDigits 2 t with
            | none => none
            | some (v, t) => (unescape n t).map (Char.ofNat v :: ·)
          else if d = 'u' then
            match hexDigits 4 t with
            | none => none
            | some (v, t) => (unescape n t).map (Char.ofNat v :: ·)
          else if d = 'U' then
            match hexDigits 8 t with
            | none => none
            | some (v, t) => if 0x110000 ≤ v then none else (unescape n t).map (Char.ofNat v :: ·)
          else if d = 'N' then none
          else (unescape n t).map (fun q => c :: d :: q)

/-- a string, at its first quote; `raw`: without escapes -/
def string (raw : Bool) (s : Str) : Option (Str × Str) :=
  match s with
  | [] => none
  | q :: r =>
    match (if r.take 2 = [q, q] then scanTriple q (r.drop 2) else scanQuote q r) with
    | none => none
    | some (body, rest) =>
      if raw then some (body, rest) else (unescape body.length body).map (fun t => (t, rest))

/-- prefixes of strings, in lower case -/
def strPrefixes : List Str := [c!"u", c!"r"]
/-- … of bytes -/
def bytesPrefixes : List Str := [c!"b", c!"br", c!"rb"]
/-- … of formatted strings, which are no literals -/
def fPrefixes : List Str := [c!"f", c!"fr", c!"rf"]

/-- ASCII lower case -/
def lower (s : Str) : Str := s.map (fun c => if 65 ≤ c.toNat ∧ c.toNat ≤ 90 then Char.ofNat (c.toNat + 32) else c)

/-- a name, or a string with a prefix. (Escapes in bytes are not looked at.) -/
def nameTok (s : Str) : Option (Tok × Str) :=
  let w := s.takeWhile isIdCont
  let rest := s.dropWhile isIdCont
  if rest.head? = some '"' ∨ rest.head? = some '\'' then
    if lower w ∈ strPrefixes then (string (lower w == c!"r") rest).map (fun p => (.text p.1, p.2))
    else if lower w ∈ bytesPrefixes then (string true rest).map (fun p => (.bytes, p.2))
    else if lower w ∈ fPrefixes then none
    else some (.name w, rest)
  else some (.name w, rest)

/-- the next token, which is not a blank -/
def nextTok (c : Char) (r : Str) : Option (Tok × Str) :=
  if isDigit c || (c == '.' && r.head?.any isDigit) then (number (c :: r)).map (fun p => (.num p.1, p.2))
  else if c = '"' ∨ c = '\'' then (string false (c :: r)).map (fun p => (.text p.1, p.2))
  else if isIdStart c then nameTok (c :: r)
  else if c = '.' ∧ r.take 2 = ['.', '.'] then some (.ellipsis, r.drop 2)
  else some (.op c, r)

/-- blanks between tokens -/
def isBlank (c : Char) : Bool := c == ' ' || c == '\t' || c == Char.ofNat 12

/-- all tokens; comments end the line. (`n`: at most the length of the text.) Line feeds are not modelled. -/
def lex : Nat → Str → Option (List Tok)
  | _, [] => some [.stop]
  | 0, _ => none
  | n + 1, c :: r =>
    if isBlank c then lex n r
    else if c = '#' then some [.stop]
    else match nextTok c r with
      | none => none
      | some (t, r) => (lex n r).map (t :: ·)

/-! ### expressions -/

/-- the expressions of which literals are made. Other expressions are errors already here, not when they are evaluated. -/
inductive Expr
  | lit (l : Lit)
  | text (s : Str)
  | bytes
  | const (v : Val)
  | name
  | sign (neg : Bool) (e : Expr)
  | binop (sum : Bool) (e f : Expr)
  | tuple (es : List Expr)
  | list (es : List Expr)
  | set (es : List Expr)
  | dict (ks vs : List Expr)

/-- a parser: the expression at the start, and what follows -/
abbrev Parser := List Tok → Option (Expr × List Tok)

/-- expressions separated by commas, after a comma, up to `close` -/
def items (p : Parser) (close : Tok) : Nat → List Tok → Option (List Expr × List Tok)
  | 0, _ => none
  | n + 1, ts =>
    if ts.head? = some close then some ([], ts.tail)
    else match p ts with
      | none => none
      | some (e, ts) =>
        if ts.head? = some close then some ([e], ts.tail)
        else if ts.head? = some (.op ',') then (items p close n ts.tail).map (fun q => (e :: q.1, q.2))
        else none

/-- the rest of a dict, after a comma -/
def entries (p : Parser) : Nat → List Tok → Option ((List Expr × List Expr) × List Tok)
  | 0, _ => none
  | n + 1, ts =>
    if ts.head? = some (.op '}') then some (([], []), ts.tail)
    else match p ts with
      | none => none
      | some (k, ts) =>
        if ts.head? = some (.op ':') then
          match p ts.tail with
          | none => none
          | some (v, ts) =>
            if ts.head? = some (.op '}') then some (([k], [v]), ts.tail)
            else if ts.head? = some (.op ',') then (entries p n ts.tail).map (fun q => ((k :: q.1.1, v :: q.1.2), q.2))
            else none
        else none

/-- strings one after the other are one string -/
def strings : Str → List Tok → Str × List Tok
  | s, .text t :: ts => strings (s ++ t) ts
  | s, ts => (s, ts)

/-- what is in parentheses, after the first: `()`, `(e)` (which is `e`), tuples -/
def parens (p : Parser) (ts : List Tok) : Option (Expr × List Tok) :=
  if ts.head? = some (.op ')') then some (.tuple [], ts.tail)
  else match p ts with
    | none => none
    | some (e, ts) =>
      if ts.head? = some (.op ')') then some (e, ts.tail)
      else if ts.head? = some (.op ',') then (items p (.op ')') ts.length ts.tail).map (fun q => (.tuple (e :: q.1), q.2))
      else none

/-- what is in brackets -/
def brackets (p : Parser) (ts : List Tok) : Option (Expr × List Tok) :=
  (items p (.op ']') (ts.length + 1) ts).map (fun q => (.list q.1, q.2))

/-- what is in braces: `{}` is a dict -/
def braces (p : Parser) (ts : List Tok) : Option (Expr × List Tok) :=
  if ts.head? = some (.op '}') then some (.dict [] [], ts.tail)
  else match p ts with
    | none => none
    | some (e, ts) =>
      if ts.head? = some (.op '}') then some (.set [e], ts.tail)
      else if ts.head? = some (.op ',') then (items p (.op '}') ts.length ts.tail).map (fun q => (.set (e :: q.1), q.2))
      else if ts.head? = some (.op ':') then
        match p ts.tail with
        | none => none
        | some (v, ts) =>
          if ts.head? = some (.op '}') then some (.dict [e] [v], ts.tail)
          else if ts.head? = some (.op ',') then (entries p ts.length ts.tail).map (fun q => (.dict (e :: q.1.1) (v :: q.1.2), q.2))
          else none
      else none

/-- names -/
def nameExpr (s : Str) : Expr :=
  if s = c!"None" then .const .none
  else if s = c!"True" then .const (.bool true)
  else if s = c!"False" then .const (.bool false)
  else .name

/-- `set()` is the empty set -/
def emptySet (s : Str) (ts : List Tok) : Bool := s == c!"set" && decide (ts.take 2 = [.op '(', .op ')'])

/-- atoms; `p` reads what is in brackets -/
def atom (p : Parser) : Parser
  | .num l :: ts => some (.lit l, ts)
  | .text s :: ts => some (.text (strings s ts).1, (strings s ts).2)
  | .bytes :: ts => some (.bytes, ts.dropWhile (· = .bytes))
  | .ellipsis :: ts => some (.const (.other 0), ts)
  | .name s :: ts => if emptySet s ts then some (.set [], ts.drop 2) else some (nameExpr s, ts)
  | .op '(' :: ts => parens p ts
  | .op '[' :: ts => brackets p ts
  | .op '{' :: ts => braces p ts
  | _ => none

/-- signs before an atom -/
def factor (a : Parser) : Parser
  | .op '+' :: ts => (factor a ts).map (fun q => (.sign false q.1, q.2))
  | .op '-' :: ts => (factor a ts).map (fun q => (.sign true q.1, q.2))
  | ts => a ts

/-- sums and differences; also products, quotients and remainders, which are no literals. (It makes no difference to the result
that Python would group these first.) -/
def sumRest (f : Parser) : Nat → Expr → List Tok → Option (Expr × List Tok)
  | 0, _, _ => none
  | n + 1, e, ts =>
    if ts.head? = some (.op '+') ∨ ts.head? = some (.op '-') then
      match f ts.tail with
      | none => none
      | some (g, ts) => sumRest f n (.binop true e g) ts
    else if ts.head? = some (.op '*') ∨ ts.head? = some (.op '/') ∨ ts.head? = some (.op '%') then
      match f ts.tail with
      | none => none
      | some (g, ts) => sumRest f n (.binop false e g) ts
    else some (e, ts)

/-- … from the first -/
def sum (f : Parser) (ts : List Tok) : Option (Expr × List Tok) :=
  match f ts with
  | none => none
  | some (e, ts) => sumRest f (ts.length + 1) e ts

/-- expressions in at most `n` brackets -/
def expr : Nat → Parser
  | 0 => sum (factor (atom (fun _ => none)))
  | n + 1 => sum (factor (atom (expr n)))

/-- Python allows 200 open brackets at a time -/
def maxLevel : Nat := 200

/-- the whole text: one expression, or several with commas -/
def parse (ts : List Tok) : Option Expr :=
  match expr maxLevel ts with
  | none => none
  | some (e, ts) =>
    if ts = [.stop] then some e
    else if ts.head? = some (.op ',') then
      match items (expr maxLevel) .stop ts.length ts.tail with
      | some (es, []) => some (.tuple (e :: es))
      | _ => none
    else none

/-! ### values -/

mutual
/-- can it be in a set? -/
def hashable : Val → Bool
  | .tuple xs => hashableAll xs
  | .set _ => false
  | .list _ => false
  | .other 1 => false
  | _ => true
/-- … all of them? -/
def hashableAll : List Val → Bool
  | [] => true
  | v :: vs => hashable v && hashableAll vs
end

/-- the number with a sign (`neg`), if it is a number: Lib/ast.py `_convert_signed_num`. Complex numbers are `other 2`. -/
def signed (neg : Bool) : Expr → Except PyErr Val
  | .lit (.int n) => .ok (.int (if neg then -n else n))
  | .lit (.real q) => .ok (.real (if neg then -q else q))
  | .lit .imag => .ok (.other 2)
  | _ => .error .valueError

/-- an `int` or a `float`, possibly with one sign -/
def isSignedReal : Expr → Bool
  | .lit (.int _) => true
  | .lit (.real _) => true
  | .sign _ (.lit (.int _)) => true
  | .sign _ (.lit (.real _)) => true
  | _ => false

mutual
/-- Lib/ast.py `literal_eval`, `_convert`. Bytes are `other 3`, dicts `other 1`, the ellipsis `other 0`. -/
def convert : Expr → Except PyErr Val
  | .lit l => signed false (.lit l)
  | .text s => .ok (.str s)
  | .bytes => .ok (.other 3)
  | .const v => .ok v
  | .name => .error .valueError
  | .sign b e => signed b e
  | .binop sum e f =>
    if sum && isSignedReal e then
      match f with
      | .lit .imag => .ok (.other 2)
      | _ => .error .valueError
    else .error .valueError
  | .tuple es => (convertAll false es).map .tuple
  | .list es => (convertAll false es).map .list
  | .set es => (convertAll true es).map .set
  | .dict ks vs => match convertAll true ks with
    | .error e => .error e
    | .ok _ => match convertAll false vs with
      | .error e => .error e
      | .ok _ => .ok (.other 1)
/-- … in order; `hash`: they have to be hashable. (For dicts, Python evaluates keys and values in turns.) -/
def convertAll (hash : Bool) : List Expr → Except PyErr (List Val)
  | [] => .ok []
  | e :: es =>
    match convert e with
    | .error x => .error x
    | .ok v =>
      if hash && !hashable v then .error .typeError
      else match convertAll hash es with
        | .error x => .error x
        | .ok vs => .ok (v :: vs)
end

/-- `ast.literal_eval` on a text of one line -/
def litEval (s : Str) : Except PyErr Val :=
  match lex s.length s with
  | none => .error .syntaxError
  | some ts => match parse ts with
    | none => .error .syntaxError
    | some e => convert e

end Verif.PyLit
