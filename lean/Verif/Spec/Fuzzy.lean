/-
Specification of finding metadata by names that are not exact.
-/
import Verif.Model.Fuzzy

namespace Verif.Fuzzy.Spec
open Verif.Py Verif.Pvl
open scoped List

/-- the longest texts that can be had from both by leaving out characters have `n` characters -/
def Common (a b : Str) (n : Nat) : Prop :=
  (∃ l : Str, l <+ a ∧ l <+ b ∧ l.length = n) ∧ ∀ l : Str, l <+ a → l <+ b → l.length ≤ n

/-- `k` is not more alike to the text than `k'`: of the characters of `k` and the text, the part that has to be
left out to make them equal is at least that for `k'`. -/
def NotCloser (k k' text : Str) : Prop :=
  ∀ n n', Common k text n → Common k' text n' →
    2 * n * (k'.length + text.length) ≤ 2 * n' * (k.length + text.length)

/-- the names of the label, each once, in any order (that of a Python set) -/
def Names (names params : List Str) : Prop := names.Nodup ∧ ∀ k, k ∈ names ↔ k ∈ params

end Verif.Fuzzy.Spec
