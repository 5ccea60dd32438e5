/-
Specification of browse images.
-/
import Verif.Model.Browse

namespace Verif.Browse.Spec
open Verif.Browse

/-- the bands a selection shows -/
def bands : Selection → List Nat
  | .single k => [k]
  | .rgb r g b => [r, g, b]
  | .burst ks => ks

/-- the band Python's index `i` names in an array of `n` bands: from the end if negative -/
def Names (n : Nat) (i : Int) (k : Nat) : Prop := k < n ∧ ((k : Int) = i ∨ (k : Int) = i + n ∧ i < 0)

/-- A map of values to bytes that stretches the values from `mn` to `mx` over all of 0 to 255: nothing leaves that range,
the order is kept, everything up to `mn` is black and everything from `mx` on is white. -/
structure Stretch {α : Type} [LE α] (mn mx : α) (f : α → Int) : Prop where
  low : ∀ x, 0 ≤ f x
  high : ∀ x, f x ≤ 255
  mono : ∀ x y, x ≤ y → f x ≤ f y
  black : ∀ x, x ≤ mn → f x = 0
  white : ∀ x, mx ≤ x → f x = 255

end Verif.Browse.Spec
