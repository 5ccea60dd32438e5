/-
Model of what happens to the XML of a PDS4 label: `pdr/pds4_tools/reader/read_label.py` 21-136 and 197-240,
`pdr/pds4_tools/utils/helpers.py` 15-38 and 145-269, `pdr/pds4_tools/reader/label_objects.py` 642-678,
`pdr/pds4_tools/reader/general_objects.py` 552-580. (`pdr/parselabel/pds4.py` is in `Model/MultiDict.lean`.)
-/
import Verif.Model.MultiDict
import Verif.Model.Literal

namespace Verif.Xml
open Verif.Py Verif.Pvl

/-- An element as ElementTree has it: name, attributes, the text before the first child, children. The text after an element
(`tail`) is left out: none of these functions looks at it. -/
inductive Element where
  | mk (tag : Str) (attrs : List (Str × Str)) (text : Option Str) (kids : List Element)

/-! ### texts -/

/-- where `str.splitlines` ends a line -/
def isBreak (c : Char) : Bool :=
  let n := c.toNat
  (10 ≤ n && n ≤ 13) || (28 ≤ n && n ≤ 30) || n == 0x85 || n == 0x2028 || n == 0x2029

/-- the pieces of a text between the characters that meet a condition -/
def splitP (p : Char → Bool) : Str → List Str
  | [] => [[]]
  | c :: cs =>
    if p c then [] :: splitP p cs
    else match splitP p cs with
      | [] => [[c]]      -- unreachable: `splitP` is never empty
      | w :: ws => (c :: w) :: ws

/-- read_label.py 197-217 `_non_blank_line_count`. Simplification: there is a blank line within CR LF, which is not counted. -/
def nonBlankLines (s : Str) : Nat := ((splitP isBreak s).filter (fun l => !(strip l).isEmpty)).length

/-- `str.split()` -/
def words (s : Str) : List Str := (splitP isSpace s).filter (fun w => !w.isEmpty)

/-- read_label.py 220-240 `_normalize` -/
def normalize (s : Str) : Str := join [' '] (words s)

/-- read_label.py 112-113, 117-118: a text with one line that is not blank is normalized -/
def tidy (s : Str) : Str := if nonBlankLines s = 1 then normalize s else s

/-! ### namespaces -/

/-- constants.py 8-10 `PDS4_NAMESPACES['pds']` -/
def pdsUri : Str := c!"http://pds.nasa.gov/pds4/pds/v1"

/-- constants.py 8-10 `PDS4_NAMESPACES`: prefix and URI -/
def known : List (Str × Str) :=
  [(c!"pds", pdsUri), (c!"disp", c!"http://pds.nasa.gov/pds4/disp/v1"), (c!"sp", c!"http://pds.nasa.gov/pds4/sp/v1")]

/-- read_label.py 72-83: the prefix a declaration (prefix and URI) is remembered with -/
def enforce (decl : Str × Str) : Str × Str :=
  known.foldl (fun elem pu => if elem.2 = pdsUri then ([], elem.2) else if pu.2 = elem.2 then (pu.1, elem.2) else elem) decl

/-- read_label.py 65, 93-94: the map from URI to prefix; a later prefix of the same URI is skipped -/
def nsMap (decls : List (Str × Str)) : List (Str × Str) :=
  decls.foldl (fun m d => if m.any (fun e => e.1 == (enforce d).2) then m else m ++ [((enforce d).2, (enforce d).1)]) []

/-- what follows the first `c`. Simplification: IndexError in Python if there is none; no tag of a parsed document with the
URI in it is without a brace. -/
def after (c : Char) (s : Str) : Str := (s.dropWhile (· ≠ c)).drop 1

/-- read_label.py 99-100: tags with the PDS4 namespace lose it -/
def bareTag (tag : Str) : Str := if contains tag pdsUri then tag.takeWhile (· ≠ '{') ++ after '}' tag else tag

mutual
/-- read_label.py 67-118 with `strip_extra_whitespace` and `enforce_default_prefixes` (label_objects.py 155-157): the
`convenient` tree. Every element is changed at its end, after its children. -/
def convenient : Element → Element
  | .mk tag attrs text kids =>
    .mk (bareTag tag) (attrs.map (fun a => (a.1, tidy a.2))) (if kids.isEmpty then text.map tidy else text) (convenientL kids)
/-- the children -/
def convenientL : List Element → List Element
  | [] => []
  | e :: es => convenient e :: convenientL es
end

/-- `str.replace` of a text that is not empty, with a bound on the length -/
def replaceFuel (old new : Str) : Nat → Str → Str
  | 0, s => s
  | _, [] => []
  | n + 1, c :: cs =>
    if old.isPrefixOf (c :: cs) then new ++ replaceFuel old new n ((c :: cs).drop old.length) else c :: replaceFuel old new n cs

/-- `str.replace` -/
def replace (old new s : Str) : Str := replaceFuel old new s.length s

/-- label_objects.py 667-675: the changes of names -/
def tagModify (m : List (Str × Str)) : List (Str × Str) :=
  m.map (fun e => ('{' :: e.1 ++ ['}'], if (strip e.2).isEmpty then [] else e.2 ++ [':']))

/-- helpers.py 193-199, 240-244: the changes of names, one after the other -/
def modify (mods : List (Str × Str)) (tag : Str) : Str := mods.foldl (fun t m => replace m.1 m.2 t) tag

/-! ### `xml_to_dict` -/

/-- a value in the dictionary; `F` are Python's floats -/
inductive Scalar (F : Type) where
  | text (s : Str)
  | int (n : Int)
  | float (x : F)

/-- what is needed of floats: `float(text)` (none: ValueError) and whether a float is zero -/
structure Floats (F : Type) where
  parse : Str → Option F
  isZero : F → Bool

variable {F : Type}

/-- helpers.py 15-38 `cast_int_float_string` -/
def castText (E : Floats F) (s : Str) : Scalar F :=
  match Literal.pyInt s 10 with
  | some n => .int n
  | none =>
    match E.parse s with
    | some x => .float x
    | none => .text s

/-- `if text:` -/
def truthy (E : Floats F) : Scalar F → Bool
  | .text s => !s.isEmpty
  | .int n => n ≠ 0
  | .float x => !E.isZero x

/-- the arguments of `xml_to_dict` -/
structure Options where
  skipAttributes : Bool
  castValues : Bool
  castIgnore : List Str
  mods : List (Str × Str)

/-- helpers.py 247-249, 259-260: the value of an attribute or a text under this name -/
def convert (E : Floats F) (o : Options) (name value : Str) : Scalar F :=
  if o.castValues && !o.castIgnore.contains name then castText E value else .text value

/-- helpers.py 215-218: `dd[k].append(v)`, or `dd[k] = [v]` -/
def addTo {V : Type} (k : Str) (v : V) : List (Str × List V) → List (Str × List V)
  | [] => [(k, [v])]
  | e :: r => if e.1 = k then (e.1, e.2 ++ [v]) :: r else e :: addTo k v r

/-- helpers.py 207-218: the children by name -/
def group {V : Type} (es : List (Str × V)) : List (Str × List V) := es.foldl (fun dd e => addTo e.1 e.2 dd) []

/-- helpers.py 220-226: a single child is not in a list -/
def unwrap {α : Type} (dd : List (Str × List (Packed α))) : List (Str × Packed α) :=
  dd.map (fun e => (e.1, match e.2 with | [v] => v | vs => .list vs))

/-- assignment to a key of an OrderedDict -/
def setKey {V : Type} (k : Str) (v : V) : List (Str × V) → List (Str × V)
  | [] => [(k, v)]
  | e :: r => if e.1 = k then (e.1, v) :: r else e :: setKey k v r

/-- `OrderedDict.update` -/
def update {V : Type} (d es : List (Str × V)) : List (Str × V) := es.foldl (fun d e => setKey e.1 e.2 d) d

/-- helpers.py 235-251: the attributes -/
def attribs (E : Floats F) (o : Options) (attrs : List (Str × Str)) : List (Str × Packed (Option (Scalar F))) :=
  attrs.foldl (fun d a => setKey (modify o.mods ('@' :: a.1)) (.leaf (some (convert E o (modify o.mods ('@' :: a.1)) a.2))) d) []

/-- helpers.py 201-269: the value of an element, from its name, its attributes, its text and its children's names and values -/
def valueOf (E : Floats F) (o : Options) (tag : Str) (attrs : List (Str × Str)) (text : Option Str)
    (kids : List (Str × Packed (Option (Scalar F)))) : Packed (Option (Scalar F)) :=
  let hasAttribs := !attrs.isEmpty && !o.skipAttributes
  let base := unwrap (group kids)
  let entries := if hasAttribs then update base (attribs E o attrs) else base
  let d := if kids.isEmpty && attrs.isEmpty then .leaf none else .map entries
  match text with
  | none => d
  | some t =>
    if (strip t).isEmpty then d
    else if !kids.isEmpty || hasAttribs then
      if truthy E (convert E o tag t) then .map (setKey c!"_text" (.leaf (some (convert E o tag t))) entries) else d
    else .leaf (some (convert E o tag t))

mutual
/-- helpers.py 145-269 `xml_to_dict`: the only key and its value -/
def xmlToDict (E : Floats F) (o : Options) : Element → Str × Packed (Option (Scalar F))
  | .mk tag attrs text kids => (modify o.mods tag, valueOf E o (modify o.mods tag) attrs text (xmlToDictL E o kids))
/-- the children -/
def xmlToDictL (E : Floats F) (o : Options) : List Element → List (Str × Packed (Option (Scalar F)))
  | [] => []
  | e :: es => xmlToDict E o e :: xmlToDictL E o es
end

/-- label_objects.py 642-678 `to_dict` of a label (default: the convenient tree and its namespaces) -/
def labelDict (E : Floats F) (skipAttributes castValues : Bool) (castIgnore : List Str) (decls : List (Str × Str))
    (root : Element) : Str × Packed (Option (Scalar F)) :=
  xmlToDict E ⟨skipAttributes, castValues, castIgnore, tagModify (nsMap decls)⟩ (convenient root)

/-- pds4.py 50-63, pdr.py 786-789: what the metadata of a PDS4 product are made from -/
def metadata (E : Floats F) (decls : List (Str × Str)) (root : Element) : MDict (Option (Scalar F)) :=
  (reformatLabel [labelDict E true false [] decls root]).1

/-- general_objects.py 526 `_DEFAULT_CAST_IGNORE` -/
def castIgnore : List Str := [c!"local_identifier", c!"name", c!"title", c!"description"]

/-- general_objects.py 552-580 `_load_keys_from_xml`: the description of a structure, from its element. AttributeError if the
element has neither children nor attributes. -/
def loadKeys (E : Floats F) (root : Element) : Except PyErr (List (Str × Packed (Option (Scalar F)))) :=
  match (xmlToDict E ⟨true, true, castIgnore, []⟩ root).2 with
  | .map entries => .ok (update [] entries)
  | _ => .error .attributeError

end Verif.Xml
