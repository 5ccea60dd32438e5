/-
Specification of what it means for label text / a statement list to *denote* a tree.
Independent of the parser: only trees, strings and whitespace.
-/
import Verif.Model.Pvl

namespace Verif.Pvl.Spec
open Verif.Py

/-- Words that open a block. -/
def openers : List Str := [c!"OBJECT", c!"GROUP", c!"BEGIN_OBJECT", c!"BEGIN_GROUP"]

/-- A statement parameter that closes a block: `END_OBJECT`, `END_GROUP`, `END_...`. -/
def Closer (c : Str) : Prop := ∃ rest, c = c!"END" ++ rest

/-- A parameter name that is neither an opener nor begins with `END`. -/
def Plain (k : Str) : Prop := k ∉ openers ∧ ¬ Closer k

/-- `Written t ss`: the statement list `ss` writes down the tree `t`. -/
inductive Written : MDict Str → List Stmt → Prop
  | nil : Written [] []
  | leaf {k v : Str} {rest : MDict Str} {ss : List Stmt} :
      Plain k → Written rest ss → Written ((k, .leaf v) :: rest) ((k, v) :: ss)
  | block {o name c x : Str} {kids rest : MDict Str} {body ss : List Stmt} :
      o ∈ openers → Closer c → c ∉ openers → Written kids body → Written rest ss →
      Written ((name, .node kids) :: rest) ((o, name) :: (body ++ (c, x) :: ss))

/-- … or does so up to an `END` statement, which is the last one. -/
def Stated (t : MDict Str) (ss : List Stmt) : Prop := Written t ss ∨ ∃ ss' x, ss = ss' ++ [(c!"END", x)] ∧ Written t ss'

mutual
/-- All keys at all levels, a block's name after its contents. -/
def keysT {α : Type} : Str → Tree α → List Str
  | k, .leaf _ => [k]
  | k, .node kids => keys kids ++ [k]
/-- All keys at all levels, a block's name after its contents. -/
def keys {α : Type} : MDict α → List Str
  | [] => []
  | (k, t) :: rest => keysT k t ++ keys rest
end

/-- Whitespace only, and no line feed. -/
def Blank (s : Str) : Prop := ∀ c ∈ s, isSpace c = true

/-- No leading or trailing whitespace, and no line feed inside. -/
def Trimmed (s : Str) : Prop :=
  (∀ c, s.head? = some c → isSpace c = false) ∧ (∀ c, s.getLast? = some c → isSpace c = false)
  ∧ '\n' ∉ s

/-- No lower-case ASCII letter among the first eight characters. -/
def UpperHead (s : Str) : Prop := ∀ c ∈ s.take 8, ¬ ('a'.toNat ≤ c.toNat ∧ c.toNat ≤ 'z'.toNat)

/-- A line that cannot be mistaken for the beginning of a statement. -/
def Continuation (l : Str) : Prop :=
  Trimmed l ∧ l ≠ [] ∧ (('=' ∈ l ∧ ¬ UpperHead l) ∨
    ('=' ∉ l ∧ l ≠ c!"END" ∧ ¬ ∃ r, l = c!"END_OBJECT" ++ r))

/-- How one statement is laid out on (trimmed, non-empty) lines, and the statement it denotes. -/
inductive Layout : List Str → Stmt → Prop
  /-- `KEY = value` with continuation lines -/
  | assign {key w₁ w₂ head : Str} {conts : List Str} :
      Trimmed key → key ≠ [] → '=' ∉ key → Trimmed head → '=' ∉ head →
      Blank w₁ → '\n' ∉ w₁ → Blank w₂ → '\n' ∉ w₂ → (head = [] → w₂ = []) →
      UpperHead (key ++ w₁ ++ c!"=" ++ w₂ ++ head) →
      (¬ ∃ r, key ++ w₁ ++ c!"=" ++ w₂ ++ head = c!"END_OBJECT" ++ r) →
      (∀ l ∈ conts, Continuation l) →
      Layout ((key ++ w₁ ++ c!"=" ++ w₂ ++ head) :: conts) (key, head ++ join c!" " conts)
  /-- a terminator line beginning with `END_OBJECT` -/
  | endObject {rest : Str} {conts : List Str} :
      Trimmed (c!"END_OBJECT" ++ rest) → ('=' ∈ rest → UpperHead (c!"END_OBJECT" ++ rest)) →
      (∀ l ∈ conts, Continuation l) →
      Layout ((c!"END_OBJECT" ++ rest) :: conts) (c!"END_OBJECT", [])
  /-- the `END` line -/
  | fin {conts : List Str} : (∀ l ∈ conts, Continuation l) → Layout (c!"END" :: conts) (c!"END", [])

/-- A sequence of laid-out statements. -/
inductive Layouts : List Str → List Stmt → Prop
  | nil : Layouts [] []
  | cons {ls rest : List Str} {s : Stmt} {ss : List Stmt} :
      Layout ls s → Layouts rest ss → Layouts (ls ++ rest) (s :: ss)

/-- Physical text: lines with arbitrary indentation, trailing blanks (including CR) and blank lines
in between, joined by LF. -/
inductive Physical : List Str → List Str → Prop
  | nil : Physical [] []
  | blank {w : Str} {phys ls : List Str} : Blank w → '\n' ∉ w → Physical phys ls →
      Physical (w :: phys) ls
  | line {w₁ l w₂ : Str} {phys ls : List Str} :
      Blank w₁ → '\n' ∉ w₁ → Blank w₂ → '\n' ∉ w₂ → Trimmed l → l ≠ [] →
      Physical phys ls → Physical ((w₁ ++ l ++ w₂) :: phys) (l :: ls)

end Verif.Pvl.Spec
