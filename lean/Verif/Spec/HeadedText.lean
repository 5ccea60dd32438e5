/-
Specification of tables with lines before them.
-/
import Verif.Spec.NamedText
import Verif.Model.HeadedText

namespace Verif.HeadedText.Spec
open Verif.Py Verif.Ascii.Spec

/-- a line of so many bytes with its line end -/
def LineOf (n : Nat) (p : Str) : Prop := p.length = n ∧ ∃ l e, p = l ++ e ∧ OneLine l ∧ (e = c!"\n" ∨ e = c!"\r\n")

end Verif.HeadedText.Spec
