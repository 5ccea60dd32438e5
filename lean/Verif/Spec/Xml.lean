/-
Specification of what the metadata of a PDS4 product say about its label.
-/
import Verif.Model.Xml

namespace Verif.Xml.Spec
open Verif.Py Verif.Pvl Verif.Xml

/-- An XML document: an element declares prefixes of namespaces, is in a namespace or in none, and has a name, attributes, a text before
its first child, and children. -/
inductive Doc where
  | mk (decls : List (Str × Str)) (ns : Option Str) (name : Str) (attrs : List (Str × Str)) (text : Option Str) (kids : List Doc)

/-- the name of an element as Python's ElementTree has it -/
def etag (ns : Option Str) (name : Str) : Str :=
  match ns with
  | none => name
  | some u => '{' :: u ++ '}' :: name

mutual
/-- the document as ElementTree has it -/
def etree : Doc → Element
  | .mk _ ns name attrs text kids => .mk (etag ns name) attrs text (etreeL kids)
/-- the children -/
def etreeL : List Doc → List Element
  | [] => []
  | d :: ds => etree d :: etreeL ds
end

mutual
/-- all declarations (prefix and namespace) in the order of the document -/
def declarations : Doc → List (Str × Str)
  | .mk decls _ _ _ _ kids => decls ++ declarationsL kids
/-- those of the children -/
def declarationsL : List Doc → List (Str × Str)
  | [] => []
  | d :: ds => declarations d ++ declarationsL ds
end

mutual
/-- all elements in the order of the document -/
def elements : Doc → List Doc
  | .mk decls ns name attrs text kids => .mk decls ns name attrs text kids :: elementsL kids
/-- those of the children -/
def elementsL : List Doc → List Doc
  | [] => []
  | d :: ds => elements d ++ elementsL ds
end

/-- the prefix shown for a namespace: `disp` and `sp` for these two dictionaries, for others the prefix that is declared for it first -/
def prefixOf (decls : List (Str × Str)) (uri : Str) : Str :=
  if uri = c!"http://pds.nasa.gov/pds4/disp/v1" then c!"disp"
  else if uri = c!"http://pds.nasa.gov/pds4/sp/v1" then c!"sp"
  else match decls.find? (fun d => d.2 = uri) with
    | some d => d.1
    | none => []

/-- the URI of the PDS4 namespace -/
def pds : Str := c!"http://pds.nasa.gov/pds4/pds/v1"

open Classical in
/-- The name an element is shown with: without a prefix if it has no namespace or the PDS4 one (or one with the PDS4 URI in it, or
with a blank prefix), and else as prefix:name. -/
noncomputable def shownName (decls : List (Str × Str)) (ns : Option Str) (name : Str) : Str :=
  match ns with
  | none => name
  | some u =>
    if pds <:+: u then name
    else if ∀ c ∈ prefixOf decls u, isSpace c = true then name
    else prefixOf decls u ++ ':' :: name

/-- only white space -/
def Blank (t : Str) : Prop := ∀ c ∈ t, isSpace c = true

/-- `t` is these words with white space before, between and after them -/
inductive HasWords : Str → List Str → Prop
  | nil (sp : Str) : Blank sp → HasWords sp []
  | last (sp w sp' : Str) : Blank sp → w ≠ [] → (∀ c ∈ w, isSpace c = false) → Blank sp' → HasWords (sp ++ w ++ sp') [w]
  | cons (sp w t : Str) (c : Char) (ws : List Str) : Blank sp → w ≠ [] → (∀ c ∈ w, isSpace c = false) → isSpace c = true →
      ws ≠ [] → HasWords t ws → HasWords (sp ++ w ++ c :: t) (w :: ws)

/-- the characters that Python takes for line ends: LF, VT, FF, CR, FS, GS, RS, NEL, LS, PS -/
def LineEnd (c : Char) : Prop := c.toNat ∈ [10, 11, 12, 13, 28, 29, 30, 133, 8232, 8233]

/-- all words, and at least one, are in the same line: apart from white space before and after there is no line end -/
def OneLine (t : Str) : Prop :=
  ∃ a b c : Str, t = a ++ b ++ c ∧ Blank a ∧ Blank c ∧ (∃ x ∈ b, isSpace x = false) ∧ ∀ x ∈ b, ¬ LineEnd x

/-- What is shown of the text of an element without children: words in one line are joined with single blanks, other texts stay as
they are. -/
def ShownText (t out : Str) : Prop :=
  (OneLine t ∧ ∃ ws, HasWords t ws ∧ out = join [' '] ws) ∨ (¬ OneLine t ∧ out = t)

/-- entries with the same key next to each other: keys in the order in which they come first, the entries of one key in their order -/
def byName {V : Type} (es : List (Str × V)) : List (Str × V) :=
  (es.map Prod.fst).eraseDups.flatMap (fun n => es.filter (fun e => e.1 = n))

variable {F : Type}

mutual
/-- What the metadata show for an element. Without children: its text, or nothing (an empty mapping if it has attributes) if that is
blank. With children: a mapping of the children by name, and then the text, if it is not blank, under `_text`. -/
inductive Shows (decls : List (Str × Str)) : Doc → Tree (Option (Scalar F)) → Prop
  | empty (dc ns name text) : (∀ t, text = some t → Blank t) → Shows decls (.mk dc ns name [] text []) (.leaf none)
  | attributes (dc ns name a attrs text) : (∀ t, text = some t → Blank t) → Shows decls (.mk dc ns name (a :: attrs) text []) (.node [])
  | text (dc ns name attrs t out) : ¬ Blank t → ShownText t out → Shows decls (.mk dc ns name attrs (some t) []) (.leaf (some (.text out)))
  | kids (dc ns name attrs text kids es) : kids ≠ [] → (∀ t, text = some t → Blank t) → ShowsAll decls kids es →
      Shows decls (.mk dc ns name attrs text kids) (.node (byName es))
  | mixed (dc ns name attrs t kids es) : kids ≠ [] → ¬ Blank t → ShowsAll decls kids es →
      Shows decls (.mk dc ns name attrs (some t) kids) (.node (byName es ++ [(c!"_text", .leaf (some (.text t)))]))
/-- the children one by one, in the order of the document -/
inductive ShowsAll (decls : List (Str × Str)) : List Doc → List (Str × Tree (Option (Scalar F))) → Prop
  | nil : ShowsAll decls [] []
  | cons (dc ns name attrs text kids v ds es) : Shows decls (.mk dc ns name attrs text kids) v → ShowsAll decls ds es →
      ShowsAll decls (.mk dc ns name attrs text kids :: ds) ((shownName decls ns name, v) :: es)
end

/-- entries with the same key are next to each other -/
def Adjacent {V : Type} (es : List (Str × V)) : Prop :=
  ∀ (i j k : Nat) (x y z : Str × V), i < j → j < k → es[i]? = some x → es[j]? = some y → es[k]? = some z → x.1 = z.1 → y.1 = x.1

/-- no braces -/
def Plain (s : Str) : Prop := '{' ∉ s ∧ '}' ∉ s

/-- the name that is shown for an element -/
noncomputable def docName (decls : List (Str × Str)) : Doc → Str
  | .mk _ ns name _ _ _ => shownName decls ns name

/-- An element as XML has them: a name without braces and slashes, a namespace that is declared; and no child with the (unusual) name
`_text` beside a text. -/
def ProperAt (decls : List (Str × Str)) : Doc → Prop
  | .mk _ ns name _ text kids => Plain name ∧ '/' ∉ name ∧ (∀ u, ns = some u → u ∈ decls.map Prod.snd) ∧
      ((∃ t, text = some t ∧ ¬ Blank t) → ∀ k ∈ kids, docName decls k ≠ c!"_text")

/-- Documents as XML has them; no braces in prefixes and in the URIs of namespaces -/
structure Proper (decls : List (Str × Str)) (d : Doc) : Prop where
  decl : ∀ e ∈ decls, Plain e.1 ∧ Plain e.2
  element : ∀ e ∈ elements d, ProperAt decls e

mutual
/-- the same document with other attributes -/
def withAttributes (g : List (Str × Str) → List (Str × Str)) : Doc → Doc
  | .mk dc ns name attrs text kids => .mk dc ns name (g attrs) text (withAttributesL g kids)
/-- the children -/
def withAttributesL (g : List (Str × Str) → List (Str × Str)) : List Doc → List Doc
  | [] => []
  | d :: ds => withAttributes g d :: withAttributesL g ds
end

end Verif.Xml.Spec
