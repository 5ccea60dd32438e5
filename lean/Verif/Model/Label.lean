/-
Model of reading a PDS3 label from a file: `pdr/parselabel/pds3.py` 134-171 (`looks_pvl`, `parse_pvl`, `read_pvl`),
the decoding at the end of `trim_label` (`pdr/parselabel/utils.py` 65-69), `check_special_label` (`pdr/formats/checkers.py`
1410-1430) and `special_label` in `pdr/formats/change.py` 118-136 and `pdr/formats/vex_mag.py` 4-24.

Not modelled: `decompress` (the model gets the decompressed bytes) and the GB 18030 code table (a parameter).
-/
import Verif.Model.Trim
import Verif.Model.MultiDict
import Verif.Model.PyLit

namespace Verif.Label
open Verif.Py Verif.Pvl Verif.Literal

/-! ### decoding -/

/-- For the first byte of a sequence of several bytes: how many more there are, the range of the second byte, and the bits the first byte
contributes (the table of well-formed UTF-8 sequences, which CPython's `utf-8` codec implements; utils.py 67). -/
def leadByte (b : Nat) : Option (Nat × Nat × Nat × Nat) :=
  if 0xC2 ≤ b ∧ b ≤ 0xDF then some (1, 0x80, 0xBF, b - 0xC0)
  else if b = 0xE0 then some (2, 0xA0, 0xBF, 0)
  else if b = 0xED then some (2, 0x80, 0x9F, 0xD)
  else if 0xE1 ≤ b ∧ b ≤ 0xEF then some (2, 0x80, 0xBF, b - 0xE0)
  else if b = 0xF0 then some (3, 0x90, 0xBF, 0)
  else if b = 0xF4 then some (3, 0x80, 0x8F, 4)
  else if 0xF1 ≤ b ∧ b ≤ 0xF3 then some (3, 0x80, 0xBF, b - 0xF0)
  else none

/-- The `n` continuation bytes of a sequence, the first of them between `lo` and `hi`: whether all are there, the number, and the
bytes that follow those that are (utils.py 67). -/
def continuation : Nat → Nat → Nat → Nat → Bytes → Bool × Nat × Bytes
  | 0, _, _, acc, s => (true, acc, s)
  | _ + 1, _, _, acc, [] => (false, acc, [])
  | n + 1, lo, hi, acc, b :: s =>
    if lo ≤ b.toNat ∧ b.toNat ≤ hi then continuation n 0x80 0xBF (acc * 64 + (b.toNat - 0x80)) s else (false, acc, b :: s)

theorem continuation_length (n lo hi acc : Nat) (s : Bytes) : (continuation n lo hi acc s).2.2.length ≤ s.length := by
  induction n generalizing lo hi acc s with
  | zero => simp [continuation]
  | succ n ih =>
    cases s with
    | nil => simp [continuation]
    | cons b s =>
      rw [continuation]
      split
      · have := ih 0x80 0xBF (acc * 64 + (b.toNat - 0x80)) s
        simp only [List.length_cons]; omega
      · exact Nat.le_refl _

/-- One character: none at an ill-formed sequence, which goes as far as it is the beginning of a well-formed one; and the rest (utils.py 67). -/
def decodeStep (b : UInt8) (rest : Bytes) : Option Char × Bytes :=
  if b.toNat < 0x80 then (some (Char.ofNat b.toNat), rest)
  else
    match leadByte b.toNat with
    | none => (none, rest)
    | some (n, lo, hi, bits) =>
      if (continuation n lo hi bits rest).1 then
        (some (Char.ofNat (continuation n lo hi bits rest).2.1), (continuation n lo hi bits rest).2.2)
      else (none, (continuation n lo hi bits rest).2.2)

theorem decodeStep_length (b : UInt8) (rest : Bytes) : (decodeStep b rest).2.length ≤ rest.length := by
  unfold decodeStep
  split
  · exact Nat.le_refl _
  · cases leadByte b.toNat with
    | none => exact Nat.le_refl _
    | some q =>
      obtain ⟨n, lo, hi, bits⟩ := q
      simp only
      split <;> exact continuation_length n lo hi bits rest

/-- `bytes.decode("utf-8", errors=...)` (utils.py 65-67): with `strict`, nothing at the first ill-formed sequence; otherwise (`replace`)
U+FFFD for every ill-formed sequence. -/
def decodeUtf8 (strict : Bool) (s : Bytes) : Option Str :=
  match s with
  | [] => some []
  | b :: rest =>
    match (decodeStep b rest).1 with
    | some c => (decodeUtf8 strict (decodeStep b rest).2).map (c :: ·)
    | none => if strict then none else (decodeUtf8 strict (decodeStep b rest).2).map (Char.ofNat 0xFFFD :: ·)
termination_by s.length
decreasing_by
  all_goals
    have := decodeStep_length b rest
    simp_wf
    omega

/-- the encodings that labels are read with (utils.py 48, change.py 135, vex_mag.py 23) -/
inductive Encoding | utf8 | gb18030 | latin1
  deriving DecidableEq

/-- utils.py 65-67 `text.decode(special_encoding, errors=policy)`. `gb` is Python's GB 18030 codec, whose code table is not modelled. -/
def decode (gb : Bool → Bytes → Option Str) : Encoding → Bool → Bytes → Option Str
  | .utf8, strict, s => decodeUtf8 strict s
  | .gb18030, strict, s => gb strict s
  | .latin1, _, s => some (s.map (fun b => Char.ofNat b.toNat))

/-! ### which labels are special -/

/-- checkers.py 1410-1430 `check_special_label`, on the file name as text: the encoding and whether decoding is strict -/
def specialEncoding (fn : Str) : Option (Encoding × Bool) :=
  if [c!"CE1", c!"CE2", c!"CE3"].any (contains fn) &&
      [c!".1A", c!".1B", c!".1C", c!".2A", c!".2B", c!".2C", c!".3A", c!".3B", c!".3C", c!".01", c!".02", c!".03"].any (contains fn) then
    some (.gb18030, false)
  else if contains fn c!".TAB" && contains fn c!"_DOY" && (contains fn c!"MAG_" || contains fn c!"BIO_") && contains fn c!"_V1" then
    some (.latin1, true)
  else none

/-- `Path(fn).suffix` (Python before 3.14): from the last dot of the last component on, unless that dot is its first or last character -/
def pathSuffix (fn : Str) : Str :=
  let r := fn.reverse.takeWhile (fun c => c != '/')
  let tail := r.takeWhile (fun c => c != '.')
  let before := r.dropWhile (fun c => c != '.')
  if tail = [] ∨ before.length ≤ 1 then [] else '.' :: tail.reverse

/-- pds3.py 134-136 `looks_pvl` -/
def looksPvl (fn : Str) : Bool := [c!".lbl", c!".fmt"].contains (lower (pathSuffix fn))

/-! ### from text to metadata -/

/-- pds3.py 303-313 `literalize_pvl` as the setter of `literalize_pvl_block` sees it: the values of a label that was just parsed are texts -/
def literalizeVal : Val → Except PyErr Val
  | .str s => literalizePvl PyLit.litEval s
  | v => .ok v

mutual
/-- The parsed label as a label whose values can be anything: pds3.py 103 puts texts into a MultiDict. -/
def textsT : Tree Str → Tree Val
  | .leaf s => .leaf (.str s)
  | .node kids => .node (texts kids)
/-- … all entries -/
def texts : MDict Str → MDict Val
  | [] => []
  | (k, t) :: rest => (k, textsT t) :: texts rest
end

/-- pds3.py 139-153 `parse_pvl` (the warning about leftover aggregations is left out) -/
def parsePvl (text : Str) (dedup : Bool) : Except PyErr (MDict Val × List Str) :=
  let parsed := parseText text
  let indexed := if dedup then indexDuplicatePointers parsed.1 parsed.2.1 else .ok (parsed.1, parsed.2.1)
  match indexed with
  | .error e => .error e
  | .ok (mapping, params) =>
    match literalizeBlock literalizeVal (texts mapping) with
    | .error e => .error e
    | .ok m => .ok (m, params)

/-- parselabel/utils.py 18: `1000 * 1024` -/
def defaultLimit : Int := 1000 * 1024

/-- pds3.py 156-171 `read_pvl`; `stream` is what `decompress(filename)` gives. Special labels are read with the default size limit
(change.py 131-136, vex_mag.py 19-24 do not pass one on). -/
def readPvl (gb : Bool → Bytes → Option Str) (fn : Str) (stream : Bytes) (dedup : Bool) (maxSize : Int) (strictDefault : Bool) :
    Except PyErr (MDict Val × List Str) :=
  let label :=
    match specialEncoding fn with
    | some (enc, strict) => Trim.trimLabel (decode gb enc) stream defaultLimit strict false
    | none => Trim.trimLabel (decode gb .utf8) stream maxSize (strictDefault && !looksPvl fn) false
  match label with
  | .error e => .error e
  | .ok text => parsePvl text dedup

end Verif.Label
