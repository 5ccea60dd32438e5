/-
Model of `pdr/loaders/_helpers.py` 16-19 and 104-148.
-/
import Verif.Model.Py

namespace Verif.LineEnd
open Verif.Py

/-- _helpers.py 16-18 `_cle`: `re.sub(r"\r\n?", "\n", text)` -/
def cle : Str → Str
  | [] => []
  | '\r' :: '\n' :: rest => '\n' :: cle rest
  | '\r' :: rest => '\n' :: cle rest
  | c :: rest => c :: cle rest

/-- A Python value as `canonicalize_line_endings` sees it: a string, a list or tuple whose elements are
strings or something else, or something else. -/
inductive TextVal (α : Type) where
  | str (s : Str)
  | seq (tuple : Bool) (xs : List (Str ⊕ α))
  | other (x : α)

/-- _helpers.py 122-135 `canonicalize_line_endings` (and 138-148 `canonicalized`, which applies it to
what a loader returns). -/
def canonicalize {α : Type} : TextVal α → TextVal α
  | .str s => .str (cle s)
  | .seq t xs => .seq t (xs.map (fun | .inl s => .inl (cle s) | .inr x => .inr x))
  | .other x => .other x

end Verif.LineEnd
