/-
Model of finding metadata by names that are not exact: `Metadata.metaget_fuzzy` in `pdr/pdr.py` 141-151.
-/
import Mathlib.Algebra.Order.Field.Rat
import Verif.Model.Metadata

namespace Verif.Fuzzy
open Verif.Py Verif.Pvl

/-- the length of the longest common subsequence, as `Levenshtein` finds it -/
def lcs : Str → Str → Nat
  | [], _ => 0
  | _ :: _, [] => 0
  | a :: as, b :: bs => if a = b then lcs as bs + 1 else max (lcs (a :: as) bs) (lcs as (b :: bs))
termination_by a b => a.length + b.length

/-- `Levenshtein.ratio` (pdr.py 145): of the characters of both, those that need neither be deleted nor
inserted; 1 for two empty texts. Simplification: a fraction, not a float. -/
def ratio (a b : Str) : Rat :=
  if a.length + b.length = 0 then 1 else ((2 * lcs a b : Nat) : Rat) / ((a.length + b.length : Nat) : Rat)

/-- pdr.py 149 `max` -/
def peak : List Rat → Rat
  | [] => 0
  | [x] => x
  | x :: xs => max x (peak xs)

variable {α D K : Type} [DecidableEq K]

/-- pdr.py 141-151 `metaget_fuzzy`: state afterwards, answer, warned or not. `names` are the elements of the set
of 145, in the order in which it gives them (that of the dictionary of 144). `none` is the value None. -/
def metagetFuzzy (e : Meta.Env α D K) (none : D) (names : List Str) (s : Meta.State α D K) (text : Str) :
    Meta.State α D K × Except PyErr (Tree α ⊕ D) × Bool :=
  match names.filter (fun k => decide (ratio k text = peak (names.map (fun k => ratio k text)))) with
  | [] => (s, .ok (.inr none), false)
  | k :: _ => Meta.metaget e s k none true

end Verif.Fuzzy
