/-
Specification of what the metadata of a desktop image say about an XML packet in it.
-/
import Verif.Model.DesktopXml

namespace Verif.DesktopXml.Spec
open Verif.Py Verif.Pvl Verif.DesktopXml

/-- An XML document: an element is in a namespace or in none, has a name, attributes (with namespace or without), a text before its
first child, and children. -/
inductive Doc where
  | mk (ns : Option Str) (name : Str) (attrs : List (Option Str × Str × Str)) (text : Option Str) (kids : List Doc)

/-- a name as Python's ElementTree has it -/
def etag (ns : Option Str) (name : Str) : Str :=
  match ns with
  | none => name
  | some u => '{' :: u ++ '}' :: name

mutual
/-- the document as ElementTree has it -/
def etree : Doc → Xml.Element
  | .mk ns name attrs text kids => .mk (etag ns name) (attrs.map (fun a => (etag a.1 a.2.1, a.2.2))) text (etreeL kids)
/-- the children -/
def etreeL : List Doc → List Xml.Element
  | [] => []
  | d :: ds => etree d :: etreeL ds
end

mutual
/-- all elements of a document -/
def elements : Doc → List Doc
  | .mk ns name attrs text kids => .mk ns name attrs text kids :: elementsL kids
/-- those of the children -/
def elementsL : List Doc → List Doc
  | [] => []
  | d :: ds => elements d ++ elementsL ds
end

/-- no text but white space -/
def Blank (text : Option Str) : Prop := ∀ t, text = some t → ∀ c ∈ t, isSpace c = true

/-- `s` is `t` without the white space at both ends, and there is something else -/
def Trimmed (t s : Str) : Prop :=
  ∃ a b, t = a ++ s ++ b ∧ (∀ c ∈ a, isSpace c = true) ∧ (∀ c ∈ b, isSpace c = true) ∧ s ≠ [] ∧
    (∀ c, s.head? = some c → isSpace c = false) ∧ (∀ c, s.getLast? = some c → isSpace c = false)

/-- an element with neither attributes nor text -/
def Bare : Doc → Prop
  | .mk _ _ attrs text _ => attrs = [] ∧ Blank text

/-- nothing is said: no attributes and no texts in the element and all below it -/
def Silent (d : Doc) : Prop := ∀ e ∈ elements d, Bare e

/-- a text beside children -/
def Mixed : Doc → Prop
  | .mk _ _ _ text kids => kids ≠ [] ∧ ¬ Blank text

/-- a name as XML has it, in a namespace as XML has it -/
def ProperName (ns : Option Str) (name : Str) : Prop := '{' ∉ name ∧ ∀ u, ns = some u → '}' ∉ u ∧ '\n' ∉ u

/-- names as XML has them, and no two attributes of an element that only differ in their namespaces -/
def ProperAt : Doc → Prop
  | .mk ns name attrs _ _ => ProperName ns name ∧ (∀ a ∈ attrs, ProperName a.1 a.2.1) ∧ (attrs.map (fun a => a.2.1)).Nodup

/-- the attributes: names without namespaces, and values, in the order of the document -/
def plainAttributes (attrs : List (Option Str × Str × Str)) : List (Str × Unpacked) := attrs.map (fun a => (a.2.1, .text a.2.2))

mutual
/-- What is shown for an element. Without children: its text, its attributes, or both under these names. With children: the attributes
and then the children in the order of the document, without those that say nothing. -/
inductive Shows : Doc → Unpacked → Prop
  | text (ns name t s) : Trimmed t s → Shows (.mk ns name [] (some t) []) (.text s)
  | attributes (ns name attrs text) : attrs ≠ [] → Blank text → Shows (.mk ns name attrs text []) (.map (plainAttributes attrs))
  | both (ns name attrs t s) : attrs ≠ [] → Trimmed t s →
      Shows (.mk ns name attrs (some t) []) (.map [(c!"attrib", .map (plainAttributes attrs)), (c!"text", .text s)])
  | kids (ns name attrs text kids es) : kids ≠ [] → Blank text → ShowsAll kids es →
      Shows (.mk ns name attrs text kids) (.map (plainAttributes attrs ++ es))
/-- the children one by one -/
inductive ShowsAll : List Doc → List (Str × Unpacked) → Prop
  | nil : ShowsAll [] []
  | skip (d ds es) : Silent d → ShowsAll ds es → ShowsAll (d :: ds) es
  | cons (ns name attrs text kids u ds es) : ¬ Silent (.mk ns name attrs text kids) → Shows (.mk ns name attrs text kids) u →
      ShowsAll ds es → ShowsAll (.mk ns name attrs text kids :: ds) ((name, u) :: es)
end

mutual
/-- What a document says: where it stands (the names of the elements below the root, then that of the attribute), and the text of the
attribute or of the element. Text and attributes of an element with both are under `text` and `attrib`. -/
inductive Says : Doc → List Str → Str → Prop
  | text (ns name t s) : Trimmed t s → Says (.mk ns name [] (some t) []) [] s
  | textBeside (ns name attrs t s) : attrs ≠ [] → Trimmed t s → Says (.mk ns name attrs (some t) []) [c!"text"] s
  | attr (ns name attrs text kids a) : a ∈ attrs → Blank text → Says (.mk ns name attrs text kids) [a.2.1] a.2.2
  | attrBeside (ns name attrs t kids a) : a ∈ attrs → ¬ Blank (some t) →
      Says (.mk ns name attrs (some t) kids) [c!"attrib", a.2.1] a.2.2
  | child (ns name attrs text kids p v) : SaysOne kids p v → Says (.mk ns name attrs text kids) p v
/-- one of the children says it -/
inductive SaysOne : List Doc → List Str → Str → Prop
  | here (ns name attrs text kids ds p v) : Says (.mk ns name attrs text kids) p v → SaysOne (.mk ns name attrs text kids :: ds) (name :: p) v
  | there (d ds p v) : SaysOne ds p v → SaysOne (d :: ds) p v
end

/-- a text in the result, and the keys that lead to it -/
inductive Found : Unpacked → List Str → Str → Prop
  | text (s) : Found (.text s) [] s
  | map (es k u p v) : (k, u) ∈ es → Found u p v → Found (.map es) (k :: p) v

end Verif.DesktopXml.Spec
