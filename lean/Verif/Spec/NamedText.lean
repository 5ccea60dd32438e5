/-
Specification of text tables of which the label gives only the names of columns.
-/
import Verif.Spec.LooseText
import Verif.Model.NamedText

namespace Verif.NamedText.Spec
open Verif.Py

/-- which names of the label a reader uses -/
def Uses : Reader → Str → Prop
  | .gas, _ => True
  | .odf, n => ¬ c!"PLACEHOLDER" <+: n
  | .curve, n | .map, n | .lecp, n => ¬ c!"PLACEHOLDER" <:+: n

/-- the names that have a property, in order -/
inductive Kept (p : Str → Prop) : List Str → List Str → Prop
  | nil : Kept p [] []
  | keep {n : Str} {ns ks : List Str} : p n → Kept p ns ks → Kept p (n :: ns) (n :: ks)
  | skip {n : Str} {ns ks : List Str} : ¬ p n → Kept p ns ks → Kept p (n :: ns) ks

/-- how many lines there are before the table -/
def linesBefore : Reader → Nat
  | .gas => 17
  | .curve | .map | .lecp | .odf => 0

/-- a text, and the same with null bytes anywhere -/
inductive WithNulls : Str → Str → Prop
  | nil : WithNulls [] []
  | char {c : Char} {s t : Str} : c.toNat ≠ 0 → WithNulls s t → WithNulls (c :: s) (c :: t)
  | null {c : Char} {s t : Str} : c.toNat = 0 → WithNulls s t → WithNulls s (c :: t)

/-- a path and the name of the file, in lower case -/
inductive FileName : Str → Str → Prop
  | alone {f : Str} : '/' ∉ f → FileName f (lower f)
  | within {d f : Str} : '/' ∉ f → FileName (d ++ c!"/" ++ f) (lower f)

/-- The names of the columns of a Viking seismometer table divided at white space: a name of the label that is not in
the file is left out; the one that is only in the file comes eighth. -/
inductive Summary (file : Str) : List Str → List Str → Prop
  | plain {a b : List Str} : ¬ c!"event_wind_summary" <:+: file → c!"SEISMIC_TIME_SOLS" ∉ a →
      Summary file (a ++ c!"SEISMIC_TIME_SOLS" :: b) (a ++ b)
  | wind {a b p q : List Str} : c!"event_wind_summary" <:+: file → c!"SEISMIC_TIME_SOLS" ∉ a → a ++ b = p ++ q →
      p.length = 7 → Summary file (a ++ c!"SEISMIC_TIME_SOLS" :: b) (p ++ c!"ORIGINAL_LINES_COUNT" :: q)

/-- … divided at commas -/
inductive Raw (file : Str) : List Str → List Str → Prop
  | event {a b : List Str} : c!"event" <:+: file → c!"SEISMIC_SOL" ∉ a → Raw file (a ++ c!"SEISMIC_SOL" :: b) (a ++ b)
  | high {names : List Str} : ¬ c!"event" <:+: file → c!"high" <:+: file → Raw file names names

end Verif.NamedText.Spec
