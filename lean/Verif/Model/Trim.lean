/-
Model of the attached-label trimmer: `pdr/parselabel/utils.py`.
-/
import Verif.Model.Py

namespace Verif

/-- Python `bytes` -/
abbrev Bytes := List UInt8

namespace Trim
open Verif.Py

/-- `\nEND` -/
def nlEnd : Bytes := [10, 69, 78, 68]

/-- `(\r| {8})` matched at the start of `s`: the length of the match -/
def crOrBlanks (s : Bytes) : Option Nat :=
  if [13].isPrefixOf s then some 1
  else if (List.replicate 8 (32 : UInt8)).isPrefixOf s then some 8 else none

/-- one blank, then `m` -/
def blankThen (m : Bytes → Option Nat) (s : Bytes) : Option Nat :=
  match s with
  | b :: t => if b = 32 then (m t).map (· + 1) else none
  | [] => none

/-- ` {0,k}(\r| {8})` matched at the start of `s` by a backtracking engine: as many blanks as possible
first. Result: the length of the match. -/
def endTail : Nat → Bytes → Option Nat
  | 0, s => crOrBlanks s
  | k + 1, s =>
    match blankThen (endTail k) s with
    | some n => some n
    | none => crOrBlanks s

/-- utils.py 9 `re.compile(b"\nEND {0,8}(\r| {8})")`, matched at the start of `s` -/
def matchPvl (s : Bytes) : Option Nat :=
  if nlEnd.isPrefixOf s then (endTail 8 (s.drop 4)).map (· + 4) else none

/-- utils.py 10 `re.compile(b"\x00{3}")`, matched at the start of `s` -/
def matchNul (s : Bytes) : Option Nat :=
  if (List.replicate 3 (0 : UInt8)).isPrefixOf s then some 3 else none

/-- utils.py 11 `b"\nEND\n"`, matched at the start of `s` -/
def matchChange (s : Bytes) : Option Nat :=
  if (nlEnd ++ [10]).isPrefixOf s then some 5 else none

/-- parselabel/utils.py 8-12 `KNOWN_LABEL_ENDINGS`, in order -/
def knownEndings : List (Bytes → Option Nat) := [matchPvl, matchNul, matchChange]

/-- `re.search(ending, chunk)`, the leftmost match; result: `endmatch.span()[1]` -/
def searchEnd (m : Bytes → Option Nat) (s : Bytes) : Option Nat :=
  match m s with
  | some n => some n
  | none =>
    match s with
    | [] => none
    | _ :: t => (searchEnd m t).map (· + 1)

/-- parselabel/utils.py 34-36: the endings tried in order on one chunk -/
def firstEnding : List (Bytes → Option Nat) → Bytes → Option Nat
  | [], _ => none
  | m :: ms, chunk =>
    match searchEnd m chunk with
    | some e => some e
    | none => firstEnding ms chunk

/-- utils.py 33, 38: `50 * 1024` -/
def chunkSize : Nat := 50 * 1024

/-- parselabel/utils.py 26-40 `_scan_to_end_of_label`. `rest` is what is left in the buffer, `text` what has been
collected. Simplification: `buf.read(n)` returns `n` bytes unless the file ends (true of regular
files, not of every IO object). -/
def scan (maxSize : Int) (raiseNoEnding : Bool) (length : Nat) (text rest : Bytes) :
    Except PyErr Bytes :=
  if (length : Int) < maxSize then
    if _h : rest = [] then if raiseNoEnding then .error .invalidLabel else .ok text
    else
      match firstEnding knownEndings (rest.take chunkSize) with
      | some e => .ok (text ++ (rest.take chunkSize).take e)
      | none => scan maxSize raiseNoEnding (length + chunkSize) (text ++ rest.take chunkSize)
                  (rest.drop chunkSize)
  else if raiseNoEnding then .error .invalidLabel else .ok text
termination_by rest.length
decreasing_by
  simp only [List.length_drop, chunkSize]
  have := List.length_pos_iff.2 _h
  omega

/-- parselabel/utils.py 43-69 `trim_label`, up to the final decoding: the bytes handed to `decode`. -/
def trimBytes (file : Bytes) (maxSize : Int) (strictDecode raiseNoEnding : Bool) :
    Except PyErr Bytes :=
  if strictDecode && (file.take 20).any (fun b => decide (128 ≤ b)) then .error .invalidLabel
  else scan maxSize raiseNoEnding 0 (file.take 20) (file.drop 20)

/-- parselabel/utils.py 43-69 `trim_label`. `decode strict bytes` is `bytes.decode(special_encoding, policy)`,
an arbitrary partial function: it is not modelled. -/
def trimLabel (decode : Bool → Bytes → Option Str) (file : Bytes) (maxSize : Int)
    (strictDecode raiseNoEnding : Bool) : Except PyErr Str :=
  match trimBytes file maxSize strictDecode raiseNoEnding with
  | .error e => .error e
  | .ok text =>
    match decode strictDecode text with
    | some s => .ok s
    | none => .error .invalidLabel

end Trim
end Verif
