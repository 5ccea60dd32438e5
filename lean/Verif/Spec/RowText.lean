/-
Specification of reading text tables whose line ends are wrong.
-/
import Verif.Spec.AsciiTable
import Verif.Model.RowText

namespace Verif.RowText.Spec
open Verif.Py Verif.Ascii Verif.Ascii.Spec

/-- the characters of a row that belong to a column -/
def chars (row : Str) (c : Col) : Str := (row.drop c.off.toNat).take c.size

/-- a row has something to be seen in one of its columns -/
def Seen (cols : List Col) (row : Str) : Prop := ∃ c ∈ cols, ∃ x ∈ chars row c, Ink x

/-- A column shows the characters at its place in each row, in order, without padding, as pandas understands
them. -/
def Shows (P : Pandas) (rows : List Str) (c : Col) (cells : Cells) : Prop :=
  ∃ ts, List.Forall₂ (fun r t => Trimmed pads (chars r c) t) rows ts ∧ Shown P.fwf P.missing Eq ts cells

/-- a table: its columns, in order, and what they show -/
def Table (P : Pandas) (rows : List Str) (cols : List Col) (out : List (Str × Cells)) : Prop :=
  List.Forall₂ (fun c q => q.1 = c.name ∧ Shows P rows c q.2) cols out

/-- A row of `n` bytes (with its line end) as it stands in a Magellan file: as it is, or with a line feed somewhere
in it. -/
inductive Written (n : Nat) : Str → Str → Prop
  | straight {l e : Str} : OneLine l → e = c!"\n" ∨ e = c!"\r\n" → (l ++ e).length = n → Written n l (l ++ e)
  | broken {a b e : Str} : OneLine (a ++ b) → e = c!"\n" ∨ e = c!"\r\n" → (a ++ b ++ e).length = n → b ++ e ≠ c!"\n" →
      Written n (a ++ b) (a ++ c!"\n" ++ b ++ e)

end Verif.RowText.Spec
