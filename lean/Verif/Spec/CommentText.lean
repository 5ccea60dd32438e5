/-
Specification of tables with comments.
-/
import Verif.Spec.HeadedText
import Verif.Model.CommentText

namespace Verif.CommentText.Spec
open Verif.Py

/-- a line, and what is before the first `V` in it -/
inductive Visible : Str → Str → Prop
  | all {l : Str} : 'V' ∉ l → Visible l l
  | cut {a b : Str} : 'V' ∉ a → Visible (a ++ 'V' :: b) a

end Verif.CommentText.Spec
