/-
Specification of the choice of a loader, in terms of words occurring in an object's name.
-/
import Verif.Model.Py

namespace Verif.Dispatch.Spec
open Verif.Py

/-- the word occurs in the name -/
def Has (name word : Str) : Prop := ∃ a b, name = a ++ word ++ b

/-- one of these words occurs in the name -/
def HasAny (name : Str) (words : List Str) : Prop := ∃ w ∈ words, Has name w

/-- names of texts and references to texts -/
def textWords : List Str := [c!"TEXT", c!"PDF", c!"MAP_PROJECTION_CATALOG", c!"FILENAME", c!"DESC"]

/-- names of tables -/
def tableNames : List Str :=
  [c!"TABLE", c!"SPREADSHEET", c!"CONTAINER", c!"SERIES", c!"SPECTRUM", c!"HISTOGRAM", c!"FILE"]

/-- names that look like those of tables but are not -/
def notTables : List Str :=
  tableNames.map (fun w => w ++ c!"_HEADER") ++ tableNames.map (fun w => w ++ c!"_NAME") ++ [c!"HISTOGRAM_IMAGE"]

/-- names of images -/
def imageWords : List Str := [c!"IMAGE", c!"QUB", c!"XDR_DOCUMENT"]

/-- names of things that are never loaded on their own -/
def NeverLoaded (p : Str) : Prop :=
  (Has p c!"TIFF" ∧ ¬ Has p c!"IMAGE" ∧ ¬ Has p c!"DOCUMENT") ∨ Has p c!"STRUCTURE" ∨ Has p c!"PDS_OBJECT"

/-- some suffix of the file name (after any dot but a leading one), in any letter case, is one of these -/
def HasSuffix (fn : Str) (exts : List Str) : Prop :=
  ∃ x ∈ exts, ∃ a b, lower fn = a ++ x ++ b ∧ a ≠ [] ∧ (b = [] ∨ b.head? = some '.')

end Verif.Dispatch.Spec
