/-
Model of the metadata that desktop images (TIFF, JPEG and others) have in XML packets: `pdr/pil_utils.py` 27 and 72-98, 118-134.
The XML is as ElementTree has it, see `Model/Xml.lean`.
-/
import Verif.Model.Xml

namespace Verif.DesktopXml
open Verif.Py Verif.Pvl Verif.Xml

/-- what follows the first '}', if no line feed is before it (`.` in a pattern stands for any character but that) -/
def pastBrace : Str → Option Str
  | [] => none
  | c :: cs => if c = '}' then some cs else if c = '\n' then none else pastBrace cs

/-- pil_utils.py 72-73 `strip_ns`, with a bound on the length: `re.sub("{.*?}", "", tag)` -/
def stripNsFuel : Nat → Str → Str
  | 0, s => s
  | _, [] => []
  | n + 1, c :: cs =>
    if c = '{' then match pastBrace cs with
      | some rest => stripNsFuel n rest
      | none => c :: stripNsFuel n cs
    else c :: stripNsFuel n cs

/-- pil_utils.py 72-73 `strip_ns` -/
def stripNs (s : Str) : Str := stripNsFuel s.length s

/-- what an element becomes: a text, or a mapping (`dict` or `MultiDict`) -/
inductive Unpacked
  | text (s : Str)
  | map (entries : List (Str × Unpacked))

/-- pil_utils.py 91-93: the attributes, in a `dict` -/
def attributes (removeNs : Bool) (attrs : List (Str × Str)) : List (Str × Unpacked) :=
  attrs.foldl (fun d a => setKey (if removeNs then stripNs a.1 else a.1) (.text a.2) d) []

/-- pil_utils.py 82 -/
def hasText (text : Option Str) : Bool :=
  match text with
  | some t => !(strip t).isEmpty
  | none => false

/-- pil_utils.py 90, 95: `node.text.strip()`, where there is text -/
def stripped (text : Option Str) : Str := strip (text.getD [])

/-- pil_utils.py 81-98 `pick_text_attrib` of an element with or without children -/
def pick (removeNs : Bool) (attrs : List (Str × Str)) (text : Option Str) (parent : Bool) : Except PyErr (Option Unpacked) :=
  if hasText text && parent then .error .syntaxError
  else if !hasText text && attrs.isEmpty then .ok none
  else if attrs.isEmpty then .ok (some (.text (stripped text)))
  else if hasText text then
    .ok (some (.map [(c!"attrib", .map (attributes removeNs attrs)), (c!"text", .text (stripped text))]))
  else .ok (some (.map (attributes removeNs attrs)))

/-- pil_utils.py 129: `len(unpacked) == 0` -/
def isEmpty : Unpacked → Bool
  | .text s => s.isEmpty
  | .map es => es.isEmpty

/-- pil_utils.py 129-131: what is added for a child -/
def entry (removeNs : Bool) (tag : Str) : Option Unpacked → List (Str × Unpacked)
  | none => []
  | some u => if isEmpty u then [] else [(if removeNs then stripNs tag else tag, u)]

/-- pil_utils.py 122-126: the mapping that the children are added to. A text (TypeError or ValueError in Python) does not occur. -/
def base : Option Unpacked → List (Str × Unpacked)
  | some (.map es) => es
  | _ => []

mutual
/-- pil_utils.py 118-134 `unpack_xml` -/
def unpack (removeNs : Bool) : Element → Except PyErr (Option Unpacked)
  | .mk _ attrs text kids =>
    match pick removeNs attrs text (!kids.isEmpty) with
    | .error e => .error e
    | .ok p =>
      if kids.isEmpty then .ok p
      else match unpackL removeNs kids with
        | .error e => .error e
        | .ok es => .ok (some (.map (base p ++ es)))
/-- pil_utils.py 127-131: the children one by one -/
def unpackL (removeNs : Bool) : List Element → Except PyErr (List (Str × Unpacked))
  | [] => .ok []
  | .mk tag attrs text kids :: es =>
    match unpack removeNs (.mk tag attrs text kids) with
    | .error e => .error e
    | .ok u => match unpackL removeNs es with
      | .error e => .error e
      | .ok rest => .ok (entry removeNs tag u ++ rest)
end

end Verif.DesktopXml
