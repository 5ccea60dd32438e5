/-
Specification of text tables read without the positions of the label.
-/
import Verif.Spec.AsciiTable
import Verif.Spec.Xml
import Verif.Model.LooseText

namespace Verif.LooseText.Spec
open Verif.Py Verif.Ascii Verif.Ascii.Spec

/-- the words of the lines that have some -/
def WordRows (lines : List Str) (rows : List (List Str)) : Prop :=
  ∃ all, List.Forall₂ Xml.Spec.HasWords lines all ∧ rows = all.filter (fun r => r ≠ [])

/-- A table of columns with these names: the first one shows the cells at place `first` of each row, the next one those
at the next place, and so on. Texts are shown as they are. -/
def Table (infer : List Str → Inferred) (missing : Str → Bool) (rows : List (List Str)) (first : Nat) (names : List Str)
    (out : List (Str × Cells)) : Prop :=
  out.map Prod.fst = names ∧
    ∀ (k : Nat) q, out[k]? = some q → Shown infer missing Eq (field rows (first + k)) q.2

/-- the names of the columns of a group: `name_1`, `name_2`, … -/
def Numbered (base : Str) (n : Nat) (names : List Str) : Prop :=
  names.length = n ∧ ∀ i < n, names[i]? = some (base ++ c!"_" ++ natStr (i + 1))

/-- the names of the columns of all groups, in order -/
inductive GroupNames : List Group → List Str → Prop
  | nil : GroupNames [] []
  | cons {g : Group} {gs : List Group} {base : Str} {n : Nat} {a b : List Str} :
      g.name = some base ∨ (g.name = none ∧ base = c!"Group") →
      g.repetitions = some (n : Int) ∨ (g.repetitions = none ∧ n = 0) →
      Numbered base n a → GroupNames gs b → GroupNames (g :: gs) (a ++ b)

/-- the tables of an AFM scan, in the order in which they follow the header -/
def scanOrder : List Str :=
  [c!"AFM_F_ERROR_TABLE", c!"AFM_F_HEIGHT_TABLE", c!"AFM_B_ERROR_TABLE", c!"AFM_B_HEIGHT_TABLE"]

end Verif.LooseText.Spec
