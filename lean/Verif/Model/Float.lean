/-
Floating point numbers as rationals, for the places where pdr computes with them.
-/
import Mathlib.Algebra.Order.Field.Rat
import Mathlib.Algebra.Order.Ring.Abs
import Mathlib.Algebra.Field.Rat
import Mathlib.Algebra.Order.Field.Basic

namespace Verif.Float

/-- a binary format: `p` bits of significand, exponents of the last place from `emin` to `emax` -/
structure Format where
  p : Nat
  emin : Int
  emax : Int

/-- IEEE 754 binary64 -/
def double : Format := ⟨53, -1074, 971⟩

/-- IEEE 754 binary32 -/
def single : Format := ⟨24, -149, 104⟩

/-- the finite numbers of a format -/
def Rep (F : Format) (x : ℚ) : Prop :=
  ∃ k e : Int, |k| < 2 ^ F.p ∧ F.emin ≤ e ∧ e ≤ F.emax ∧ x = k * 2 ^ e

/-- the largest number of a format -/
def largest (F : Format) : ℚ := (2 ^ F.p - 1) * 2 ^ F.emax

/-- results from here on are infinite: half a unit in the last place above the largest number -/
def limit (F : Format) : ℚ := (2 ^ F.p - 1 / 2) * 2 ^ F.emax

/-- Rounding to nearest (ties in any way) among the finite numbers: numbers of the format stay as they are, and
no number of the format is nearer to `x` than `fl x`. An IEEE operation is this applied to the exact result
if that is below `limit`, and infinite otherwise. -/
structure Rounding (F : Format) where
  fl : ℚ → ℚ
  exact : ∀ x, Rep F x → fl x = x
  rep : ∀ x, Rep F (fl x)
  nearest : ∀ x y, Rep F y → |fl x - x| ≤ |y - x|

end Verif.Float
