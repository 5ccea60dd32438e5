/-
Specification of label endings and of where the trimmer looks for them.
-/
import Verif.Model.Trim

namespace Verif.Trim.Spec

/-- A common PVL ending: line feed, `END`, then either up to eight blanks and a carriage return, or
eight to sixteen blanks. -/
def PvlEnding (w : Bytes) : Prop :=
  (∃ k, k ≤ 8 ∧ w = [10, 69, 78, 68] ++ List.replicate k 32 ++ [13]) ∨
  (∃ k, 8 ≤ k ∧ k ≤ 16 ∧ w = [10, 69, 78, 68] ++ List.replicate k 32)

/-- Three NUL bytes. -/
def NulEnding (w : Bytes) : Prop := w = [0, 0, 0]

/-- `END` on a line of its own, with line feeds only. -/
def LfEnding (w : Bytes) : Prop := w = [10, 69, 78, 68, 10]

/-- the recognised label endings -/
def Ending (w : Bytes) : Prop := PvlEnding w ∨ NulEnding w ∨ LfEnding w

/-- `w` occurs in `c`, ending at offset `e` -/
def OccursAt (w c : Bytes) (e : Nat) : Prop := ∃ a b, c = a ++ w ++ b ∧ e = a.length + w.length

/-- `e` is the end of the first occurrence of an ending of kind `E` in `c` (earliest start; among
those the longest). -/
def FirstEnd (E : Bytes → Prop) (c : Bytes) (e : Nat) : Prop :=
  ∃ w, E w ∧ OccursAt w c e ∧
    ∀ w' e', E w' → OccursAt w' c e' → e - w.length ≤ e' - w'.length ∧
      (e - w.length = e' - w'.length → w'.length ≤ w.length)

/-- no ending of kind `E` in `c` -/
def Absent (E : Bytes → Prop) (c : Bytes) : Prop := ∀ w e, E w → ¬ OccursAt w c e

/-- the end found in a window: kinds are tried in order, first occurrence of the first kind present -/
def WindowEnd (c : Bytes) (e : Nat) : Prop :=
  FirstEnd PvlEnding c e ∨ (Absent PvlEnding c ∧ FirstEnd NulEnding c e) ∨
  (Absent PvlEnding c ∧ Absent NulEnding c ∧ FirstEnd LfEnding c e)

/-- the `i`-th window the trimmer searches: 51200 bytes, the first one starting at byte 20 -/
def window (f : Bytes) (i : Nat) : Bytes := (f.drop (20 + 51200 * i)).take 51200

end Verif.Trim.Spec
