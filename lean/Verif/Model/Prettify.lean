/-
Model of printing metadata: `prettify_multidict` in `pdr/utils.py` 196-224, used by `str(metadata)` and
`repr(metadata)` (`pdr/pdr.py` 199-205).
-/
import Verif.Model.Metadata

namespace Verif.Prettify
open Verif.Py Verif.Pvl

/-- A value of the label that is not a MultiDict: a string, or anything else, by what an f-string makes of it
(for a string, the string). -/
inductive Face where
  | str (s : Str)
  | other (s : Str)

/-- what an f-string makes of the value -/
def Face.text : Face → Str
  | .str s => s
  | .other s => s

/-- `" " * n` -/
def spaces (n : Nat) : Str := List.replicate n ' '

variable {α : Type} (face : α → Face) (wrap : Str → Nat → List Str)

/-- utils.py 210-218: the text that follows the key, for a value that is not a MultiDict. `indentation` is the
length of the text of that name. `wrap` is `textwrap.wrap`, which raises ValueError if the width is not
positive; `lines[0]` raises IndexError if there is no line. -/
def leafText (indentation indent : Nat) (a : α) : Except PyErr Str :=
  match face a with
  | .other s => .ok s
  | .str s =>
    if s.length ≤ 70 then .ok s
    else if 70 ≤ indentation then .error .valueError
    else match wrap s (70 - indentation) with
      | [] => .error .indexError
      | l :: ls => .ok (l ++ c!"\n" ++ join c!"\n" (ls.map (fun line => spaces (indent + 1) ++ line)))

/-- utils.py 219-221: the first attempt, on a line, and the second, on many (`many`), made if the text has
become too long -/
def attempt (flat : Except PyErr (Option Str)) (many : Except PyErr Str) : Except PyErr Str :=
  match flat with
  | .error e => .error e
  | .ok (some out) => .ok out
  | .ok none => many

mutual
/-- utils.py 205-218: the text that follows the key -/
def valueText (indentation indent : Nat) : Tree α → Except PyErr Str
  | .leaf a => leafText face wrap indentation indent a
  | .node kids => attempt (flat (indent + 2) kids c!"{") (many (indent + 3) true kids c!"{")

/-- utils.py 198-224 with `sep=" "`: the text, or none if the text becomes longer than 70 characters (the call
of 221 is made by the caller here) -/
def flat (indent : Nat) : MDict α → Str → Except PyErr (Option Str)
  | [], out => .ok (some (out ++ c!"}"))
  | (k, v) :: rest, out =>
    match valueText 0 indent v with
    | .error e => .error e
    | .ok s =>
      if 70 < (out ++ k ++ c!": " ++ s ++ c!", ").length then .ok none
      else flat indent rest (out ++ k ++ c!": " ++ s ++ c!", ")

/-- utils.py 198-224 with `sep="\n"`. `first` is `first_line`. -/
def many (indent : Nat) (first : Bool) : MDict α → Str → Except PyErr Str
  | [], out => .ok (out ++ (if first then [] else spaces (indent - 1)) ++ c!"}")
  | (k, v) :: rest, out =>
    match valueText indent indent v with
    | .error e => .error e
    | .ok s => many indent false rest
        ((if first then out ++ c!"\n" else out) ++ spaces indent ++ k ++ c!": " ++ s ++ c!",\n")
end

/-- utils.py 196-224 `prettify_multidict` with `sep=" "` -/
def prettify (indent : Nat) (m : MDict α) : Except PyErr Str :=
  attempt (flat face wrap indent m c!"{") (many face wrap (indent + 1) true m c!"{")

/-- pdr.py 199-205 `Metadata.__str__`, `Metadata.__repr__` -/
def str (m : MDict α) : Except PyErr Str :=
  match prettify face wrap 0 m with
  | .error e => .error e
  | .ok s => .ok (c!"Metadata(" ++ s ++ c!")")

end Verif.Prettify
