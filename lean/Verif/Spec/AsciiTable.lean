/-
Specification of text tables: the lines of a text, the fields of a line, and what a column shows.
-/
import Verif.Spec.Table
import Verif.Model.AsciiTable

namespace Verif.Ascii.Spec
open Verif.Py Verif.Format.Spec Verif.Table Verif.Table.Spec

/-- no line breaks -/
def OneLine (l : Str) : Prop := '\n' ∉ l ∧ '\r' ∉ l

/-- A text and its lines, which end with LF or CRLF (the last one may have no end). -/
inductive HasLines : Str → List Str → Prop
  | nil : HasLines [] []
  | last {l : Str} : OneLine l → l ≠ [] → HasLines l [l]
  | line {l e text : Str} {ls : List Str} : OneLine l → e = c!"\n" ∨ e = c!"\r\n" → HasLines text ls →
      HasLines (l ++ e ++ text) (l :: ls)

/-- the separators a table can have -/
inductive Separates : Option Str → Char → Prop
  | default : Separates none ','
  | comma : Separates (some c!"COMMA") ','
  | bar : Separates (some c!"VERTICAL_BAR") '|'
  | semicolon : Separates (some c!"SEMICOLON") ';'
  | tab : Separates (some c!"TAB") '\t'

/-- In a quoted text, quotes are doubled. -/
def doubled (s : Str) : Str := s.flatMap (fun c => if c = '"' then ['"', '"'] else [c])

/-- How a field is written: as it is, if it does not begin with a quote, or between quotes. What follows the closing quote
also belongs to the field. -/
inductive Written (sep : Char) : Str → Str → Prop
  | plain {v : Str} : sep ∉ v → v.head? ≠ some '"' → Written sep v v
  | quoted {v more : Str} : sep ∉ more → more.head? ≠ some '"' →
      Written sep (['"'] ++ doubled v ++ ['"'] ++ more) (v ++ more)

/-- a line and its fields -/
def Fields (sep : Char) (line : Str) (vs : List Str) : Prop :=
  ∃ ws, ws ≠ [] ∧ List.Forall₂ (Written sep) ws vs ∧ line = join [sep] ws

/-- a line with nothing but blanks -/
def Blank (sep : Char) (line : Str) : Prop := ∀ c ∈ line, (c = ' ' ∨ c = '\t') ∧ c ≠ sep

instance (sep : Char) (line : Str) : Decidable (Blank sep line) := by unfold Blank; infer_instance

/-- the fields of the lines that are not blank -/
def Delimited (sep : Char) (lines : List Str) (rows : List (List Str)) : Prop :=
  List.Forall₂ (Fields sep) (lines.filter (fun l => ¬ Blank sep l)) rows

/-- The first line has `n` fields, and no line has more. -/
def Fits (n : Nat) (rows : List (List Str)) : Prop :=
  (∃ first, rows.head? = some first ∧ first.length = n) ∧ ∀ r ∈ rows, r.length ≤ n

/-- the `i`th field of every line; nothing for lines that are shorter -/
def field (rows : List (List Str)) (i : Nat) : List Str := rows.map (fun r => r.getD i [])

/-- `t` is `s` without the `chars` at its ends -/
def Trimmed (chars : List Char) (s t : Str) : Prop :=
  ∃ a b, s = a ++ t ++ b ∧ (∀ c ∈ a, c ∈ chars) ∧ (∀ c ∈ b, c ∈ chars) ∧ (∀ c, t.head? = some c → c ∉ chars) ∧
    ∀ c, t.getLast? = some c → c ∉ chars

/-- blanks, tabs, quotes and commas -/
def pads : List Char := [' ', '\t', '"', ',']

/-- What a column shows if its cells are understood by `understand`. Texts are shown as `T` says. -/
inductive Shown (understand : List Str → Inferred) (missing : Str → Bool) (T : Str → Str → Prop) (cells : List Str) :
    Cells → Prop
  | values {c : Column} : understand cells = .values c → Shown understand missing T cells (.values c)
  | mixed {vs : List (Option Bool)} : understand cells = .mixed vs → Shown understand missing T cells (.mixed vs)
  | texts {vs : List (Option Str)} : understand cells = .text →
      List.Forall₂ (fun c v => (missing c = true ∧ v = none) ∨ (missing c = false ∧ ∃ t, T c t ∧ v = some t)) cells vs →
      Shown understand missing T cells (.texts vs)

/-- the characters of a line at a place of the label -/
def charsAt (line : Str) (s : Slot) : Str := (line.drop s.off.toNat).take s.size

/-- a character that is to be seen: no padding, no white space -/
def Ink (c : Char) : Prop := c ∉ pads ∧ isSpace c = false

/-- Which lines of a table with columns at `S` are kept: those that have something to be seen in one of the columns; not
those that are nothing but padding. (What becomes of lines with something elsewhere only is left open.) -/
def Keeps (S : List Slot) (keep : Str → Bool) : Prop :=
  (∀ l, (∃ s ∈ S, ∃ c ∈ charsAt l s, Ink c) → OneLine l → keep l = true) ∧ ∀ l, (∀ c ∈ l, c ∈ pads) → keep l = false

/-- A column shows the characters at its place in the kept lines, without padding. -/
def ShownAt (P : Pandas) (lines : List Str) (keep : Str → Bool) (s : Slot) (c : Cells) : Prop :=
  ∃ cells, List.Forall₂ (fun l t => Trimmed pads (charsAt l s) t) (lines.filter keep) cells ∧ Shown P.fwf P.missing Eq cells c

/-- The label takes the table to be text: it has a column of an ASCII type, or its name or INTERCHANGE_FORMAT says so. -/
def IsText (b : Block) (es : List Entry) : Prop :=
  (∃ s ∈ slots (b.rowPrefix.getD 0) es, c!"ASCII" <:+: s.attrs.dataType) ∨ c!"SPREADSHEET" <:+: b.name ∨
    c!"ASCII" <:+: b.name ∨ b.interchange = some c!"ASCII"

/-- The lines of the part of a file that has the table: so many bytes from a position on, or so many lines from a line on;
without a length, all that follow. -/
inductive TableLines (content : Str) : Locate.TablePos → List Str → Prop
  | bytes {start n : Nat} {lines : List Str} : HasLines ((content.drop start).take n) lines →
      TableLines content ⟨start, .int n, false⟩ lines
  | bytesToEnd {start : Nat} {lines : List Str} : HasLines (content.drop start) lines →
      TableLines content ⟨start, .none, false⟩ lines
  | rows {start n : Nat} {lines : List Str} : HasLines content lines → start + n ≤ lines.length →
      TableLines content ⟨start, .int n, true⟩ ((lines.drop start).take n)
  | rowsToEnd {start : Nat} {lines : List Str} : HasLines content lines → start ≤ lines.length →
      TableLines content ⟨start, .none, true⟩ (lines.drop start)

/-- A field as most are: without a quote at its start; or between quotes, with no quotes inside and only padding after
them. -/
inductive Simple (sep : Char) : Str → Str → Prop
  | plain {w : Str} : w.head? ≠ some '"' → sep ∉ w → Simple sep w w
  | quoted {u more : Str} : '"' ∉ u → (∀ c ∈ more, c ∈ pads) → sep ∉ more → more.head? ≠ some '"' →
      Simple sep (['"'] ++ u ++ ['"'] ++ more) (u ++ more)

/-- The places of the label are those of the fields of a line, from position `o` on: each is within its field, and what is
before and after it in the field is padding. -/
inductive Between : Nat → List Str → List Slot → Prop
  | nil {o : Nat} : Between o [] []
  | cons {o : Nat} {w : Str} {ws : List Str} {s : Slot} {S : List Slot} : (o : Int) ≤ s.off → s.off + s.size ≤ o + w.length →
      (∀ c ∈ w.take (s.off.toNat - o), c ∈ pads) → (∀ c ∈ w.drop (s.off.toNat - o + s.size), c ∈ pads) →
      Between (o + w.length + 1) ws S → Between o (w :: ws) (s :: S)

/-- a line whose fields are simple and where the label says -/
def Standard (sep : Char) (S : List Slot) (line : Str) (vs : List Str) : Prop :=
  ∃ ws, ws ≠ [] ∧ List.Forall₂ (Simple sep) ws vs ∧ line = join [sep] ws ∧ Between 0 ws S

/-- neither SCALING_FACTOR nor OFFSET -/
def Unscaled (a : Format.Attrs) : Prop := a.scale = none ∧ a.offset = none

/-- A column can be scaled exactly (or does not have to be): it is of integers (int64) or reals (float64), and the numbers
involved can be represented. -/
def CanScale (a : Format.Attrs) (c : Cells) : Prop :=
  Unscaled a ∨ factor a ≠ 0 ∧ ∃ col vs, c = .values col ∧ Shows col vs ∧
    ((∃ ns, col = .ints ⟨true, 64⟩ ns) ∧ ExactFor a (fun x => ∃ v ∈ vs, Amount v x) ⟨some .little, .int, 8⟩ ∨
     (∃ ns, col = .floats .f64 ns) ∧ ExactFor a (fun x => ∃ v ∈ vs, Amount v x) ⟨some .little, .float, 8⟩)

/-- what scaling makes of a column: stored values times factor plus offset -/
def ScaledAs (a : Format.Attrs) (c c' : Cells) : Prop :=
  (Unscaled a ∧ c' = c) ∨ ∃ col col' vs ws, c = .values col ∧ c' = .values col' ∧ Shows col vs ∧ Shows col' ws ∧
    List.Forall₂ (Scaled a) vs ws

/-- the names of the columns of a SPREADSHEET: see C27 -/
def fieldNames (fields : List Field) : List Str :=
  let names := fields.flatMap (fun f => List.replicate (copies f.items) f.name)
  Format.reindexNames names []

/-- their factors and offsets -/
def fieldAttrs (fields : List Field) : List Format.Attrs :=
  fields.flatMap (fun f => List.replicate (copies f.items) { scale := f.scale, offset := f.offset })

end Verif.Ascii.Spec
