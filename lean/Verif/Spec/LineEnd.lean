/-
Specification: texts as lines separated by line breaks.
-/
import Verif.Model.Py

namespace Verif.LineEnd.Spec

/-- the three line breaks -/
inductive Break | lf | cr | crlf
  deriving DecidableEq

/-- how a break is written -/
def Break.text : Break → Str
  | .lf => ['\n'] | .cr => ['\r'] | .crlf => ['\r', '\n']

/-- a text: lines each followed by a break, then a last line -/
def render : List (Str × Break) → Str → Str
  | [], last => last
  | (l, b) :: rest, last => l ++ b.text ++ render rest last

/-- the same text with every break written as a line feed -/
def lfText : List (Str × Break) → Str → Str
  | [], last => last
  | (l, _) :: rest, last => l ++ '\n' :: lfText rest last

/-- lines contain no CR or LF, and a lone CR is not directly followed by LF (that would be a CRLF) -/
def WellFormed : List (Str × Break) → Str → Prop
  | [], last => '\r' ∉ last ∧ '\n' ∉ last
  | (l, b) :: rest, last => '\r' ∉ l ∧ '\n' ∉ l ∧ WellFormed rest last ∧
      (b = .cr → ∀ r, rest ≠ ([], .lf) :: r)

end Verif.LineEnd.Spec
