/-
The 16-point inverse cosine transform of the MOC decoder computes, in exact arithmetic, the sum of cosines it stands for.
(The combinations of product formulas below were found by a script; the kernel checks them.)
-/
import Verif.Model.MocDct
import Verif.Spec.MocDct
import Mathlib.Tactic.LinearCombination
import Mathlib.Tactic.IntervalCases

namespace Verif.Moc
open Verif.Moc.Spec

/-- exact arithmetic -/
def reals : Arith ℝ := ⟨fun x y => x + y, fun x y => x - y, fun x y => x * y, fun x => -x⟩

theorem cosine_zero : cosine 0 = 1 := by simp [cosine]

theorem cosine_sixteen : cosine 16 = 0 := by
  rw [cosine, show ((16 : Nat) : ℝ) * Real.pi / 32 = Real.pi / 2 by push_cast; ring, Real.cos_pi_div_two]

theorem cosine_mul (a b : Nat) (h : b ≤ a) : cosine a * cosine b = (cosine (a + b) + cosine (a - b)) / 2 := by
  have h1 : ((a + b : Nat) : ℝ) * Real.pi / 32 = a * Real.pi / 32 + b * Real.pi / 32 := by push_cast; ring
  have h2 : ((a - b : Nat) : ℝ) * Real.pi / 32 = a * Real.pi / 32 - b * Real.pi / 32 := by rw [Nat.cast_sub h]; ring
  rw [cosine, cosine, cosine, cosine, h1, h2, Real.cos_add, Real.cos_sub]
  ring

theorem cosine_half (k j : Nat) (h : k + j = 32) : cosine k = -cosine j := by
  have h1 : (k : ℝ) * Real.pi / 32 = Real.pi - j * Real.pi / 32 := by
    have : (k : ℝ) = 32 - j := by rw [eq_sub_iff_add_eq]; exact_mod_cast h
    rw [this]
    ring
  rw [cosine, cosine, h1, Real.cos_pi_sub]

theorem cosine_turn (k j m : Nat) (h : k = 64 * m + j) : cosine k = cosine j := by
  have h1 : (k : ℝ) * Real.pi / 32 = j * Real.pi / 32 + m * (2 * Real.pi) := by rw [h]; push_cast; ring
  rw [cosine, cosine, h1, Real.cos_add_nat_mul_two_pi]

theorem cosine_back (k j m : Nat) (h : k + j = 64 * m) : cosine k = cosine j := by
  have h1 : (k : ℝ) * Real.pi / 32 = m * (2 * Real.pi) - j * Real.pi / 32 := by
    have : (k : ℝ) = 64 * m - j := by rw [eq_sub_iff_add_eq]; exact_mod_cast h
    rw [this]
    ring
  rw [cosine, cosine, h1, Real.cos_nat_mul_two_pi_sub]

theorem weight_zero : weight 0 = cosine 8 := by
  rw [weight, if_pos rfl, cosine, show ((8 : Nat) : ℝ) * Real.pi / 32 = Real.pi / 4 by push_cast; ring, Real.cos_pi_div_four]

theorem cos_4_1 : cosine 4 * cosine 1 = (cosine 5 + cosine 3) / 2 := by
  have h := cosine_mul 4 1 (by norm_num)
  norm_num only at h
  linear_combination h

theorem cos_4_3 : cosine 4 * cosine 3 = (cosine 7 + cosine 1) / 2 := by
  have h := cosine_mul 4 3 (by norm_num)
  norm_num only at h
  linear_combination h

theorem cos_5_4 : cosine 5 * cosine 4 = (cosine 9 + cosine 1) / 2 := by
  have h := cosine_mul 5 4 (by norm_num)
  norm_num only at h
  linear_combination h

theorem cos_7_4 : cosine 7 * cosine 4 = (cosine 11 + cosine 3) / 2 := by
  have h := cosine_mul 7 4 (by norm_num)
  norm_num only at h
  linear_combination h

theorem cos_8_1 : cosine 8 * cosine 1 = (cosine 9 + cosine 7) / 2 := by
  have h := cosine_mul 8 1 (by norm_num)
  norm_num only at h
  linear_combination h

theorem cos_8_2 : cosine 8 * cosine 2 = (cosine 10 + cosine 6) / 2 := by
  have h := cosine_mul 8 2 (by norm_num)
  norm_num only at h
  linear_combination h

theorem cos_8_3 : cosine 8 * cosine 3 = (cosine 11 + cosine 5) / 2 := by
  have h := cosine_mul 8 3 (by norm_num)
  norm_num only at h
  linear_combination h

theorem cos_8_4 : cosine 8 * cosine 4 = (cosine 12 + cosine 4) / 2 := by
  have h := cosine_mul 8 4 (by norm_num)
  norm_num only at h
  linear_combination h

theorem cos_8_5 : cosine 8 * cosine 5 = (cosine 13 + cosine 3) / 2 := by
  have h := cosine_mul 8 5 (by norm_num)
  norm_num only at h
  linear_combination h

theorem cos_8_6 : cosine 8 * cosine 6 = (cosine 14 + cosine 2) / 2 := by
  have h := cosine_mul 8 6 (by norm_num)
  norm_num only at h
  linear_combination h

theorem cos_8_7 : cosine 8 * cosine 7 = (cosine 15 + cosine 1) / 2 := by
  have h := cosine_mul 8 7 (by norm_num)
  norm_num only at h
  linear_combination h

theorem cos_9_4 : cosine 9 * cosine 4 = (cosine 13 + cosine 5) / 2 := by
  have h := cosine_mul 9 4 (by norm_num)
  norm_num only at h
  linear_combination h

theorem cos_9_8 : cosine 9 * cosine 8 = (-cosine 15 + cosine 1) / 2 := by
  have h := cosine_mul 9 8 (by norm_num)
  norm_num only at h
  rw [cosine_half 17 15 (by norm_num)] at h
  linear_combination h

theorem cos_10_8 : cosine 10 * cosine 8 = (-cosine 14 + cosine 2) / 2 := by
  have h := cosine_mul 10 8 (by norm_num)
  norm_num only at h
  rw [cosine_half 18 14 (by norm_num)] at h
  linear_combination h

theorem cos_11_4 : cosine 11 * cosine 4 = (cosine 15 + cosine 7) / 2 := by
  have h := cosine_mul 11 4 (by norm_num)
  norm_num only at h
  linear_combination h

theorem cos_11_8 : cosine 11 * cosine 8 = (-cosine 13 + cosine 3) / 2 := by
  have h := cosine_mul 11 8 (by norm_num)
  norm_num only at h
  rw [cosine_half 19 13 (by norm_num)] at h
  linear_combination h

theorem cos_12_1 : cosine 12 * cosine 1 = (cosine 13 + cosine 11) / 2 := by
  have h := cosine_mul 12 1 (by norm_num)
  norm_num only at h
  linear_combination h

theorem cos_12_3 : cosine 12 * cosine 3 = (cosine 15 + cosine 9) / 2 := by
  have h := cosine_mul 12 3 (by norm_num)
  norm_num only at h
  linear_combination h

theorem cos_12_5 : cosine 12 * cosine 5 = (-cosine 15 + cosine 7) / 2 := by
  have h := cosine_mul 12 5 (by norm_num)
  norm_num only at h
  rw [cosine_half 17 15 (by norm_num)] at h
  linear_combination h

theorem cos_12_7 : cosine 12 * cosine 7 = (-cosine 13 + cosine 5) / 2 := by
  have h := cosine_mul 12 7 (by norm_num)
  norm_num only at h
  rw [cosine_half 19 13 (by norm_num)] at h
  linear_combination h

theorem cos_12_8 : cosine 12 * cosine 8 = (-cosine 12 + cosine 4) / 2 := by
  have h := cosine_mul 12 8 (by norm_num)
  norm_num only at h
  rw [cosine_half 20 12 (by norm_num)] at h
  linear_combination h

theorem cos_12_9 : cosine 12 * cosine 9 = (-cosine 11 + cosine 3) / 2 := by
  have h := cosine_mul 12 9 (by norm_num)
  norm_num only at h
  rw [cosine_half 21 11 (by norm_num)] at h
  linear_combination h

theorem cos_12_11 : cosine 12 * cosine 11 = (-cosine 9 + cosine 1) / 2 := by
  have h := cosine_mul 12 11 (by norm_num)
  norm_num only at h
  rw [cosine_half 23 9 (by norm_num)] at h
  linear_combination h

theorem cos_13_4 : cosine 13 * cosine 4 = (-cosine 15 + cosine 9) / 2 := by
  have h := cosine_mul 13 4 (by norm_num)
  norm_num only at h
  rw [cosine_half 17 15 (by norm_num)] at h
  linear_combination h

theorem cos_13_8 : cosine 13 * cosine 8 = (-cosine 11 + cosine 5) / 2 := by
  have h := cosine_mul 13 8 (by norm_num)
  norm_num only at h
  rw [cosine_half 21 11 (by norm_num)] at h
  linear_combination h

theorem cos_13_12 : cosine 13 * cosine 12 = (-cosine 7 + cosine 1) / 2 := by
  have h := cosine_mul 13 12 (by norm_num)
  norm_num only at h
  rw [cosine_half 25 7 (by norm_num)] at h
  linear_combination h

theorem cos_14_8 : cosine 14 * cosine 8 = (-cosine 10 + cosine 6) / 2 := by
  have h := cosine_mul 14 8 (by norm_num)
  norm_num only at h
  rw [cosine_half 22 10 (by norm_num)] at h
  linear_combination h

theorem cos_15_4 : cosine 15 * cosine 4 = (-cosine 13 + cosine 11) / 2 := by
  have h := cosine_mul 15 4 (by norm_num)
  norm_num only at h
  rw [cosine_half 19 13 (by norm_num)] at h
  linear_combination h

theorem cos_15_8 : cosine 15 * cosine 8 = (-cosine 9 + cosine 7) / 2 := by
  have h := cosine_mul 15 8 (by norm_num)
  norm_num only at h
  rw [cosine_half 23 9 (by norm_num)] at h
  linear_combination h

theorem cos_15_12 : cosine 15 * cosine 12 = (-cosine 5 + cosine 3) / 2 := by
  have h := cosine_mul 15 12 (by norm_num)
  norm_num only at h
  rw [cosine_half 27 5 (by norm_num)] at h
  linear_combination h

set_option maxHeartbeats 1600000 in
theorem line_0 (x : Nat → ℝ) : dctInv16 reals cosine x 0 =
    x 0 * cosine 8 + x 1 * cosine 1 + x 2 * cosine 2 + x 3 * cosine 3 + x 4 * cosine 4 + x 5 * cosine 5 + x 6 * cosine 6 + x
    7 * cosine 7 + x 8 * cosine 8 + x 9 * cosine 9 + x 10 * cosine 10 + x 11 * cosine 11 + x 12 * cosine 12 + x 13 * cosine
    13 + x 14 * cosine 14 + x 15 * cosine 15 := by
  simp only [dctInv16, dctA, dctB, dctC, dctD, dctE, dctF, reals]
  ring

set_option maxHeartbeats 1600000 in
theorem line_1 (x : Nat → ℝ) : dctInv16 reals cosine x 1 =
    x 0 * cosine 8 + x 1 * cosine 3 + x 2 * cosine 6 + x 3 * cosine 9 + x 4 * cosine 12 + x 5 * cosine 15 - x 6 * cosine 14
    - x 7 * cosine 11 - x 8 * cosine 8 - x 9 * cosine 5 - x 10 * cosine 2 - x 11 * cosine 1 - x 12 * cosine 4 - x 13 *
    cosine 7 - x 14 * cosine 10 - x 15 * cosine 13 := by
  simp only [dctInv16, dctA, dctB, dctC, dctD, dctE, dctF, reals]
  linear_combination x 14 * cos_14_8 + x 2 * cos_8_2 - x 6 * cos_8_6 - x 10 * cos_10_8 + x 2 * cos_14_8 - x 14 * cos_8_2 - x 10 * cos_8_6 + x
    6 * cos_10_8 + x 15 * cos_15_4 + x 1 * cos_4_1 - x 7 * cos_7_4 - x 9 * cos_9_4 + x 1 * cos_15_12 - x 15 * cos_12_1 - x 9
    * cos_12_7 + x 7 * cos_12_9 + x 3 * cos_12_3 + x 13 * cos_13_12 - x 11 * cos_12_11 - x 5 * cos_12_5 - x 13 * cos_4_3 + x
    3 * cos_13_4 + x 5 * cos_11_4 - x 11 * cos_5_4

set_option maxHeartbeats 1600000 in
theorem line_2 (x : Nat → ℝ) : dctInv16 reals cosine x 2 =
    x 0 * cosine 8 + x 1 * cosine 5 + x 2 * cosine 10 + x 3 * cosine 15 - x 4 * cosine 12 - x 5 * cosine 7 - x 6 * cosine 2
    - x 7 * cosine 3 - x 8 * cosine 8 - x 9 * cosine 13 + x 10 * cosine 14 + x 11 * cosine 9 + x 12 * cosine 4 + x 13 *
    cosine 1 + x 14 * cosine 6 + x 15 * cosine 11 := by
  simp only [dctInv16, dctA, dctB, dctC, dctD, dctE, dctF, reals]
  linear_combination x 15 * cosine 4 * cos_15_8 + x 1 * cosine 1 * cos_8_4 - x 7 * cosine 4 * cos_8_7 - x 9 * cosine 4 * cos_9_8 + x 1 *
    cosine 8 * cos_15_12 - x 15 * cosine 1 * cos_12_8 - x 9 * cosine 7 * cos_12_8 + x 7 * cosine 8 * cos_12_9 - x 3 * cosine
    3 * cos_12_8 - x 13 * cosine 8 * cos_13_12 + x 11 * cosine 8 * cos_12_11 + x 5 * cosine 5 * cos_12_8 + x 13 * cosine 3 *
    cos_8_4 - x 3 * cosine 4 * cos_13_8 - x 5 * cosine 4 * cos_11_8 + x 11 * cosine 4 * cos_8_5 - x 1 * cosine 4 * cos_15_8
    + x 15 * cosine 1 * cos_8_4 + x 9 * cosine 4 * cos_8_7 - x 7 * cosine 4 * cos_9_8 + x 15 * cosine 8 * cos_15_12 + x 1 *
    cosine 1 * cos_12_8 - x 7 * cosine 7 * cos_12_8 - x 9 * cosine 8 * cos_12_9 + x 13 * cosine 3 * cos_12_8 - x 3 * cosine
    8 * cos_13_12 - x 5 * cosine 8 * cos_12_11 + x 11 * cosine 5 * cos_12_8 + x 3 * cosine 3 * cos_8_4 + x 13 * cosine 4 *
    cos_13_8 - x 11 * cosine 4 * cos_11_8 - x 5 * cosine 4 * cos_8_5 + x 14 * cos_14_8 + x 2 * cos_8_2 - x 6 * cos_8_6 - x
    10 * cos_10_8 - x 2 * cos_14_8 + x 14 * cos_8_2 + x 10 * cos_8_6 - x 6 * cos_10_8 - 1/2 * x 15 * cos_9_4 + 1/2 * x 15 *
    cos_7_4 + x 1 * cos_4_1 - x 7 * cos_4_1 + x 9 * cos_15_4 - 1/2 * x 1 * cos_8_5 + 1/2 * x 1 * cos_8_3 + x 15 * cos_12_1 +
    1/2 * x 9 * cos_12_7 - 1/2 * x 9 * cos_7_4 - 1/2 * x 7 * cos_11_8 + 1/2 * x 7 * cos_8_3 + x 3 * cos_12_3 + 1/2 * x 13 *
    cos_8_7 - 1/2 * x 13 * cos_8_1 - 1/2 * x 11 * cos_9_8 + 1/2 * x 11 * cos_8_1 - 1/2 * x 5 * cos_12_5 + 1/2 * x 5 *
    cos_5_4 + x 13 * cos_4_3 + 1/2 * x 3 * cos_11_4 - 1/2 * x 3 * cos_5_4 - x 5 * cos_4_3 + x 11 * cos_13_4 + 1/2 * x 1 *
    cos_9_4 - 1/2 * x 1 * cos_7_4 - 1/2 * x 15 * cos_8_5 + 1/2 * x 15 * cos_8_3 + 1/2 * x 7 * cos_12_7 - 1/2 * x 7 * cos_7_4
    + 1/2 * x 9 * cos_11_8 - 1/2 * x 9 * cos_8_3 + 1/2 * x 3 * cos_8_7 - 1/2 * x 3 * cos_8_1 + 1/2 * x 5 * cos_9_8 - 1/2 * x
    5 * cos_8_1 - 1/2 * x 11 * cos_12_5 + 1/2 * x 11 * cos_5_4 - 1/2 * x 13 * cos_11_4 + 1/2 * x 13 * cos_5_4

set_option maxHeartbeats 1600000 in
theorem line_3 (x : Nat → ℝ) : dctInv16 reals cosine x 3 =
    x 0 * cosine 8 + x 1 * cosine 7 + x 2 * cosine 14 - x 3 * cosine 11 - x 4 * cosine 4 - x 5 * cosine 3 - x 6 * cosine 10
    + x 7 * cosine 15 + x 8 * cosine 8 + x 9 * cosine 1 + x 10 * cosine 6 + x 11 * cosine 13 - x 12 * cosine 12 - x 13 *
    cosine 5 - x 14 * cosine 2 - x 15 * cosine 9 := by
  simp only [dctInv16, dctA, dctB, dctC, dctD, dctE, dctF, reals]
  linear_combination x 15 * cos_15_8 + x 1 * cos_8_1 + x 7 * cos_8_7 + x 9 * cos_9_8 - x 3 * cos_8_3 - x 13 * cos_13_8 - x 11 * cos_11_8 - x
    5 * cos_8_5 + x 1 * cos_15_8 - x 15 * cos_8_1 + x 9 * cos_8_7 - x 7 * cos_9_8 - x 13 * cos_8_3 + x 3 * cos_13_8 - x 5 *
    cos_11_8 + x 11 * cos_8_5

set_option maxHeartbeats 1600000 in
theorem line_4 (x : Nat → ℝ) : dctInv16 reals cosine x 4 =
    x 0 * cosine 8 + x 1 * cosine 9 - x 2 * cosine 14 - x 3 * cosine 5 - x 4 * cosine 4 - x 5 * cosine 13 + x 6 * cosine 10
    + x 7 * cosine 1 + x 8 * cosine 8 - x 9 * cosine 15 - x 10 * cosine 6 - x 11 * cosine 3 - x 12 * cosine 12 + x 13 *
    cosine 11 + x 14 * cosine 2 + x 15 * cosine 7 := by
  simp only [dctInv16, dctA, dctB, dctC, dctD, dctE, dctF, reals]
  linear_combination x 15 * cos_15_8 + x 1 * cos_8_1 + x 7 * cos_8_7 + x 9 * cos_9_8 - x 3 * cos_8_3 - x 13 * cos_13_8 - x 11 * cos_11_8 - x
    5 * cos_8_5 - x 1 * cos_15_8 + x 15 * cos_8_1 - x 9 * cos_8_7 + x 7 * cos_9_8 + x 13 * cos_8_3 - x 3 * cos_13_8 + x 5 *
    cos_11_8 - x 11 * cos_8_5

set_option maxHeartbeats 1600000 in
theorem line_5 (x : Nat → ℝ) : dctInv16 reals cosine x 5 =
    x 0 * cosine 8 + x 1 * cosine 11 - x 2 * cosine 10 - x 3 * cosine 1 - x 4 * cosine 12 + x 5 * cosine 9 + x 6 * cosine 2
    + x 7 * cosine 13 - x 8 * cosine 8 - x 9 * cosine 3 - x 10 * cosine 14 + x 11 * cosine 7 + x 12 * cosine 4 + x 13 *
    cosine 15 - x 14 * cosine 6 - x 15 * cosine 5 := by
  simp only [dctInv16, dctA, dctB, dctC, dctD, dctE, dctF, reals]
  linear_combination x 15 * cosine 4 * cos_15_8 + x 1 * cosine 1 * cos_8_4 - x 7 * cosine 4 * cos_8_7 - x 9 * cosine 4 * cos_9_8 + x 1 *
    cosine 8 * cos_15_12 - x 15 * cosine 1 * cos_12_8 - x 9 * cosine 7 * cos_12_8 + x 7 * cosine 8 * cos_12_9 - x 3 * cosine
    3 * cos_12_8 - x 13 * cosine 8 * cos_13_12 + x 11 * cosine 8 * cos_12_11 + x 5 * cosine 5 * cos_12_8 + x 13 * cosine 3 *
    cos_8_4 - x 3 * cosine 4 * cos_13_8 - x 5 * cosine 4 * cos_11_8 + x 11 * cosine 4 * cos_8_5 + x 1 * cosine 4 * cos_15_8
    - x 15 * cosine 1 * cos_8_4 - x 9 * cosine 4 * cos_8_7 + x 7 * cosine 4 * cos_9_8 - x 15 * cosine 8 * cos_15_12 - x 1 *
    cosine 1 * cos_12_8 + x 7 * cosine 7 * cos_12_8 + x 9 * cosine 8 * cos_12_9 - x 13 * cosine 3 * cos_12_8 + x 3 * cosine
    8 * cos_13_12 + x 5 * cosine 8 * cos_12_11 - x 11 * cosine 5 * cos_12_8 - x 3 * cosine 3 * cos_8_4 - x 13 * cosine 4 *
    cos_13_8 + x 11 * cosine 4 * cos_11_8 + x 5 * cosine 4 * cos_8_5 - x 14 * cos_14_8 - x 2 * cos_8_2 + x 6 * cos_8_6 + x
    10 * cos_10_8 + x 2 * cos_14_8 - x 14 * cos_8_2 - x 10 * cos_8_6 + x 6 * cos_10_8 - 1/2 * x 15 * cos_9_4 + 1/2 * x 15 *
    cos_7_4 + x 1 * cos_12_1 - x 7 * cos_15_4 - x 9 * cos_4_1 - 1/2 * x 1 * cos_8_5 + 1/2 * x 1 * cos_8_3 - x 15 * cos_4_1 +
    1/2 * x 9 * cos_12_7 - 1/2 * x 9 * cos_7_4 - 1/2 * x 7 * cos_11_8 + 1/2 * x 7 * cos_8_3 - x 3 * cos_4_3 + 1/2 * x 13 *
    cos_8_7 - 1/2 * x 13 * cos_8_1 - 1/2 * x 11 * cos_9_8 + 1/2 * x 11 * cos_8_1 - 1/2 * x 5 * cos_12_5 + 1/2 * x 5 *
    cos_5_4 + x 13 * cos_12_3 + 1/2 * x 3 * cos_11_4 - 1/2 * x 3 * cos_5_4 + x 5 * cos_13_4 + x 11 * cos_4_3 - 1/2 * x 1 *
    cos_9_4 + 1/2 * x 1 * cos_7_4 + 1/2 * x 15 * cos_8_5 - 1/2 * x 15 * cos_8_3 - 1/2 * x 7 * cos_12_7 + 1/2 * x 7 * cos_7_4
    - 1/2 * x 9 * cos_11_8 + 1/2 * x 9 * cos_8_3 - 1/2 * x 3 * cos_8_7 + 1/2 * x 3 * cos_8_1 - 1/2 * x 5 * cos_9_8 + 1/2 * x
    5 * cos_8_1 + 1/2 * x 11 * cos_12_5 - 1/2 * x 11 * cos_5_4 + 1/2 * x 13 * cos_11_4 - 1/2 * x 13 * cos_5_4

set_option maxHeartbeats 1600000 in
theorem line_6 (x : Nat → ℝ) : dctInv16 reals cosine x 6 =
    x 0 * cosine 8 + x 1 * cosine 13 - x 2 * cosine 6 - x 3 * cosine 7 + x 4 * cosine 12 + x 5 * cosine 1 + x 6 * cosine 14
    - x 7 * cosine 5 - x 8 * cosine 8 + x 9 * cosine 11 + x 10 * cosine 2 + x 11 * cosine 15 - x 12 * cosine 4 - x 13 *
    cosine 9 + x 14 * cosine 10 + x 15 * cosine 3 := by
  simp only [dctInv16, dctA, dctB, dctC, dctD, dctE, dctF, reals]
  linear_combination (-1) * x 14 * cos_14_8 - x 2 * cos_8_2 + x 6 * cos_8_6 + x 10 * cos_10_8 - x 2 * cos_14_8 + x 14 * cos_8_2 + x 10 *
    cos_8_6 - x 6 * cos_10_8 - x 1 * cos_15_4 + x 15 * cos_4_1 + x 9 * cos_7_4 - x 7 * cos_9_4 + x 15 * cos_15_12 + x 1 *
    cos_12_1 - x 7 * cos_12_7 - x 9 * cos_12_9 - x 13 * cos_12_3 + x 3 * cos_13_12 + x 5 * cos_12_11 - x 11 * cos_12_5 - x 3
    * cos_4_3 - x 13 * cos_13_4 + x 11 * cos_11_4 + x 5 * cos_5_4

set_option maxHeartbeats 1600000 in
theorem line_7 (x : Nat → ℝ) : dctInv16 reals cosine x 7 =
    x 0 * cosine 8 + x 1 * cosine 15 - x 2 * cosine 2 - x 3 * cosine 13 + x 4 * cosine 4 + x 5 * cosine 11 - x 6 * cosine 6
    - x 7 * cosine 9 + x 8 * cosine 8 + x 9 * cosine 7 - x 10 * cosine 10 - x 11 * cosine 5 + x 12 * cosine 12 + x 13 *
    cosine 3 - x 14 * cosine 14 - x 15 * cosine 1 := by
  simp only [dctInv16, dctA, dctB, dctC, dctD, dctE, dctF, reals]
  ring

set_option maxHeartbeats 1600000 in
theorem line_8 (x : Nat → ℝ) : dctInv16 reals cosine x 8 =
    x 0 * cosine 8 - x 1 * cosine 15 - x 2 * cosine 2 + x 3 * cosine 13 + x 4 * cosine 4 - x 5 * cosine 11 - x 6 * cosine 6
    + x 7 * cosine 9 + x 8 * cosine 8 - x 9 * cosine 7 - x 10 * cosine 10 + x 11 * cosine 5 + x 12 * cosine 12 - x 13 *
    cosine 3 - x 14 * cosine 14 + x 15 * cosine 1 := by
  simp only [dctInv16, dctA, dctB, dctC, dctD, dctE, dctF, reals]
  ring

set_option maxHeartbeats 1600000 in
theorem line_9 (x : Nat → ℝ) : dctInv16 reals cosine x 9 =
    x 0 * cosine 8 - x 1 * cosine 13 - x 2 * cosine 6 + x 3 * cosine 7 + x 4 * cosine 12 - x 5 * cosine 1 + x 6 * cosine 14
    + x 7 * cosine 5 - x 8 * cosine 8 - x 9 * cosine 11 + x 10 * cosine 2 - x 11 * cosine 15 - x 12 * cosine 4 + x 13 *
    cosine 9 + x 14 * cosine 10 - x 15 * cosine 3 := by
  simp only [dctInv16, dctA, dctB, dctC, dctD, dctE, dctF, reals]
  linear_combination (-1) * x 14 * cos_14_8 - x 2 * cos_8_2 + x 6 * cos_8_6 + x 10 * cos_10_8 - x 2 * cos_14_8 + x 14 * cos_8_2 + x 10 *
    cos_8_6 - x 6 * cos_10_8 + x 1 * cos_15_4 - x 15 * cos_4_1 - x 9 * cos_7_4 + x 7 * cos_9_4 - x 15 * cos_15_12 - x 1 *
    cos_12_1 + x 7 * cos_12_7 + x 9 * cos_12_9 + x 13 * cos_12_3 - x 3 * cos_13_12 - x 5 * cos_12_11 + x 11 * cos_12_5 + x 3
    * cos_4_3 + x 13 * cos_13_4 - x 11 * cos_11_4 - x 5 * cos_5_4

set_option maxHeartbeats 1600000 in
theorem line_10 (x : Nat → ℝ) : dctInv16 reals cosine x 10 =
    x 0 * cosine 8 - x 1 * cosine 11 - x 2 * cosine 10 + x 3 * cosine 1 - x 4 * cosine 12 - x 5 * cosine 9 + x 6 * cosine 2
    - x 7 * cosine 13 - x 8 * cosine 8 + x 9 * cosine 3 - x 10 * cosine 14 - x 11 * cosine 7 + x 12 * cosine 4 - x 13 *
    cosine 15 - x 14 * cosine 6 + x 15 * cosine 5 := by
  simp only [dctInv16, dctA, dctB, dctC, dctD, dctE, dctF, reals]
  linear_combination (-1) * x 15 * cosine 4 * cos_15_8 - x 1 * cosine 1 * cos_8_4 + x 7 * cosine 4 * cos_8_7 + x 9 * cosine 4 * cos_9_8 - x 1
    * cosine 8 * cos_15_12 + x 15 * cosine 1 * cos_12_8 + x 9 * cosine 7 * cos_12_8 - x 7 * cosine 8 * cos_12_9 + x 3 *
    cosine 3 * cos_12_8 + x 13 * cosine 8 * cos_13_12 - x 11 * cosine 8 * cos_12_11 - x 5 * cosine 5 * cos_12_8 - x 13 *
    cosine 3 * cos_8_4 + x 3 * cosine 4 * cos_13_8 + x 5 * cosine 4 * cos_11_8 - x 11 * cosine 4 * cos_8_5 - x 1 * cosine 4
    * cos_15_8 + x 15 * cosine 1 * cos_8_4 + x 9 * cosine 4 * cos_8_7 - x 7 * cosine 4 * cos_9_8 + x 15 * cosine 8 *
    cos_15_12 + x 1 * cosine 1 * cos_12_8 - x 7 * cosine 7 * cos_12_8 - x 9 * cosine 8 * cos_12_9 + x 13 * cosine 3 *
    cos_12_8 - x 3 * cosine 8 * cos_13_12 - x 5 * cosine 8 * cos_12_11 + x 11 * cosine 5 * cos_12_8 + x 3 * cosine 3 *
    cos_8_4 + x 13 * cosine 4 * cos_13_8 - x 11 * cosine 4 * cos_11_8 - x 5 * cosine 4 * cos_8_5 - x 14 * cos_14_8 - x 2 *
    cos_8_2 + x 6 * cos_8_6 + x 10 * cos_10_8 + x 2 * cos_14_8 - x 14 * cos_8_2 - x 10 * cos_8_6 + x 6 * cos_10_8 + 1/2 * x
    15 * cos_9_4 - 1/2 * x 15 * cos_7_4 - x 1 * cos_12_1 + x 7 * cos_15_4 + x 9 * cos_4_1 + 1/2 * x 1 * cos_8_5 - 1/2 * x 1
    * cos_8_3 + x 15 * cos_4_1 - 1/2 * x 9 * cos_12_7 + 1/2 * x 9 * cos_7_4 + 1/2 * x 7 * cos_11_8 - 1/2 * x 7 * cos_8_3 + x
    3 * cos_4_3 - 1/2 * x 13 * cos_8_7 + 1/2 * x 13 * cos_8_1 + 1/2 * x 11 * cos_9_8 - 1/2 * x 11 * cos_8_1 + 1/2 * x 5 *
    cos_12_5 - 1/2 * x 5 * cos_5_4 - x 13 * cos_12_3 - 1/2 * x 3 * cos_11_4 + 1/2 * x 3 * cos_5_4 - x 5 * cos_13_4 - x 11 *
    cos_4_3 + 1/2 * x 1 * cos_9_4 - 1/2 * x 1 * cos_7_4 - 1/2 * x 15 * cos_8_5 + 1/2 * x 15 * cos_8_3 + 1/2 * x 7 * cos_12_7
    - 1/2 * x 7 * cos_7_4 + 1/2 * x 9 * cos_11_8 - 1/2 * x 9 * cos_8_3 + 1/2 * x 3 * cos_8_7 - 1/2 * x 3 * cos_8_1 + 1/2 * x
    5 * cos_9_8 - 1/2 * x 5 * cos_8_1 - 1/2 * x 11 * cos_12_5 + 1/2 * x 11 * cos_5_4 - 1/2 * x 13 * cos_11_4 + 1/2 * x 13 *
    cos_5_4

set_option maxHeartbeats 1600000 in
theorem line_11 (x : Nat → ℝ) : dctInv16 reals cosine x 11 =
    x 0 * cosine 8 - x 1 * cosine 9 - x 2 * cosine 14 + x 3 * cosine 5 - x 4 * cosine 4 + x 5 * cosine 13 + x 6 * cosine 10
    - x 7 * cosine 1 + x 8 * cosine 8 + x 9 * cosine 15 - x 10 * cosine 6 + x 11 * cosine 3 - x 12 * cosine 12 - x 13 *
    cosine 11 + x 14 * cosine 2 - x 15 * cosine 7 := by
  simp only [dctInv16, dctA, dctB, dctC, dctD, dctE, dctF, reals]
  linear_combination (-1) * x 15 * cos_15_8 - x 1 * cos_8_1 - x 7 * cos_8_7 - x 9 * cos_9_8 + x 3 * cos_8_3 + x 13 * cos_13_8 + x 11 *
    cos_11_8 + x 5 * cos_8_5 + x 1 * cos_15_8 - x 15 * cos_8_1 + x 9 * cos_8_7 - x 7 * cos_9_8 - x 13 * cos_8_3 + x 3 *
    cos_13_8 - x 5 * cos_11_8 + x 11 * cos_8_5

set_option maxHeartbeats 1600000 in
theorem line_12 (x : Nat → ℝ) : dctInv16 reals cosine x 12 =
    x 0 * cosine 8 - x 1 * cosine 7 + x 2 * cosine 14 + x 3 * cosine 11 - x 4 * cosine 4 + x 5 * cosine 3 - x 6 * cosine 10
    - x 7 * cosine 15 + x 8 * cosine 8 - x 9 * cosine 1 + x 10 * cosine 6 - x 11 * cosine 13 - x 12 * cosine 12 + x 13 *
    cosine 5 - x 14 * cosine 2 + x 15 * cosine 9 := by
  simp only [dctInv16, dctA, dctB, dctC, dctD, dctE, dctF, reals]
  linear_combination (-1) * x 15 * cos_15_8 - x 1 * cos_8_1 - x 7 * cos_8_7 - x 9 * cos_9_8 + x 3 * cos_8_3 + x 13 * cos_13_8 + x 11 *
    cos_11_8 + x 5 * cos_8_5 - x 1 * cos_15_8 + x 15 * cos_8_1 - x 9 * cos_8_7 + x 7 * cos_9_8 + x 13 * cos_8_3 - x 3 *
    cos_13_8 + x 5 * cos_11_8 - x 11 * cos_8_5

set_option maxHeartbeats 1600000 in
theorem line_13 (x : Nat → ℝ) : dctInv16 reals cosine x 13 =
    x 0 * cosine 8 - x 1 * cosine 5 + x 2 * cosine 10 - x 3 * cosine 15 - x 4 * cosine 12 + x 5 * cosine 7 - x 6 * cosine 2
    + x 7 * cosine 3 - x 8 * cosine 8 + x 9 * cosine 13 + x 10 * cosine 14 - x 11 * cosine 9 + x 12 * cosine 4 - x 13 *
    cosine 1 + x 14 * cosine 6 - x 15 * cosine 11 := by
  simp only [dctInv16, dctA, dctB, dctC, dctD, dctE, dctF, reals]
  linear_combination (-1) * x 15 * cosine 4 * cos_15_8 - x 1 * cosine 1 * cos_8_4 + x 7 * cosine 4 * cos_8_7 + x 9 * cosine 4 * cos_9_8 - x 1
    * cosine 8 * cos_15_12 + x 15 * cosine 1 * cos_12_8 + x 9 * cosine 7 * cos_12_8 - x 7 * cosine 8 * cos_12_9 + x 3 *
    cosine 3 * cos_12_8 + x 13 * cosine 8 * cos_13_12 - x 11 * cosine 8 * cos_12_11 - x 5 * cosine 5 * cos_12_8 - x 13 *
    cosine 3 * cos_8_4 + x 3 * cosine 4 * cos_13_8 + x 5 * cosine 4 * cos_11_8 - x 11 * cosine 4 * cos_8_5 + x 1 * cosine 4
    * cos_15_8 - x 15 * cosine 1 * cos_8_4 - x 9 * cosine 4 * cos_8_7 + x 7 * cosine 4 * cos_9_8 - x 15 * cosine 8 *
    cos_15_12 - x 1 * cosine 1 * cos_12_8 + x 7 * cosine 7 * cos_12_8 + x 9 * cosine 8 * cos_12_9 - x 13 * cosine 3 *
    cos_12_8 + x 3 * cosine 8 * cos_13_12 + x 5 * cosine 8 * cos_12_11 - x 11 * cosine 5 * cos_12_8 - x 3 * cosine 3 *
    cos_8_4 - x 13 * cosine 4 * cos_13_8 + x 11 * cosine 4 * cos_11_8 + x 5 * cosine 4 * cos_8_5 + x 14 * cos_14_8 + x 2 *
    cos_8_2 - x 6 * cos_8_6 - x 10 * cos_10_8 - x 2 * cos_14_8 + x 14 * cos_8_2 + x 10 * cos_8_6 - x 6 * cos_10_8 + 1/2 * x
    15 * cos_9_4 - 1/2 * x 15 * cos_7_4 - x 1 * cos_4_1 + x 7 * cos_4_1 - x 9 * cos_15_4 + 1/2 * x 1 * cos_8_5 - 1/2 * x 1 *
    cos_8_3 - x 15 * cos_12_1 - 1/2 * x 9 * cos_12_7 + 1/2 * x 9 * cos_7_4 + 1/2 * x 7 * cos_11_8 - 1/2 * x 7 * cos_8_3 - x
    3 * cos_12_3 - 1/2 * x 13 * cos_8_7 + 1/2 * x 13 * cos_8_1 + 1/2 * x 11 * cos_9_8 - 1/2 * x 11 * cos_8_1 + 1/2 * x 5 *
    cos_12_5 - 1/2 * x 5 * cos_5_4 - x 13 * cos_4_3 - 1/2 * x 3 * cos_11_4 + 1/2 * x 3 * cos_5_4 + x 5 * cos_4_3 - x 11 *
    cos_13_4 - 1/2 * x 1 * cos_9_4 + 1/2 * x 1 * cos_7_4 + 1/2 * x 15 * cos_8_5 - 1/2 * x 15 * cos_8_3 - 1/2 * x 7 *
    cos_12_7 + 1/2 * x 7 * cos_7_4 - 1/2 * x 9 * cos_11_8 + 1/2 * x 9 * cos_8_3 - 1/2 * x 3 * cos_8_7 + 1/2 * x 3 * cos_8_1
    - 1/2 * x 5 * cos_9_8 + 1/2 * x 5 * cos_8_1 + 1/2 * x 11 * cos_12_5 - 1/2 * x 11 * cos_5_4 + 1/2 * x 13 * cos_11_4 - 1/2
    * x 13 * cos_5_4

set_option maxHeartbeats 1600000 in
theorem line_14 (x : Nat → ℝ) : dctInv16 reals cosine x 14 =
    x 0 * cosine 8 - x 1 * cosine 3 + x 2 * cosine 6 - x 3 * cosine 9 + x 4 * cosine 12 - x 5 * cosine 15 - x 6 * cosine 14
    + x 7 * cosine 11 - x 8 * cosine 8 + x 9 * cosine 5 - x 10 * cosine 2 + x 11 * cosine 1 - x 12 * cosine 4 + x 13 *
    cosine 7 - x 14 * cosine 10 + x 15 * cosine 13 := by
  simp only [dctInv16, dctA, dctB, dctC, dctD, dctE, dctF, reals]
  linear_combination x 14 * cos_14_8 + x 2 * cos_8_2 - x 6 * cos_8_6 - x 10 * cos_10_8 + x 2 * cos_14_8 - x 14 * cos_8_2 - x 10 * cos_8_6 + x
    6 * cos_10_8 - x 15 * cos_15_4 - x 1 * cos_4_1 + x 7 * cos_7_4 + x 9 * cos_9_4 - x 1 * cos_15_12 + x 15 * cos_12_1 + x 9
    * cos_12_7 - x 7 * cos_12_9 - x 3 * cos_12_3 - x 13 * cos_13_12 + x 11 * cos_12_11 + x 5 * cos_12_5 + x 13 * cos_4_3 - x
    3 * cos_13_4 - x 5 * cos_11_4 + x 11 * cos_5_4

set_option maxHeartbeats 1600000 in
theorem line_15 (x : Nat → ℝ) : dctInv16 reals cosine x 15 =
    x 0 * cosine 8 - x 1 * cosine 1 + x 2 * cosine 2 - x 3 * cosine 3 + x 4 * cosine 4 - x 5 * cosine 5 + x 6 * cosine 6 - x
    7 * cosine 7 + x 8 * cosine 8 - x 9 * cosine 9 + x 10 * cosine 10 - x 11 * cosine 11 + x 12 * cosine 12 - x 13 * cosine
    13 + x 14 * cosine 14 - x 15 * cosine 15 := by
  simp only [dctInv16, dctA, dctB, dctC, dctD, dctE, dctF, reals]
  ring

theorem fold_17 : cosine 17 = -cosine 15 := by
  rw [cosine_half 17 15 (by norm_num)]

theorem fold_18 : cosine 18 = -cosine 14 := by
  rw [cosine_half 18 14 (by norm_num)]

theorem fold_19 : cosine 19 = -cosine 13 := by
  rw [cosine_half 19 13 (by norm_num)]

theorem fold_20 : cosine 20 = -cosine 12 := by
  rw [cosine_half 20 12 (by norm_num)]

theorem fold_21 : cosine 21 = -cosine 11 := by
  rw [cosine_half 21 11 (by norm_num)]

theorem fold_22 : cosine 22 = -cosine 10 := by
  rw [cosine_half 22 10 (by norm_num)]

theorem fold_23 : cosine 23 = -cosine 9 := by
  rw [cosine_half 23 9 (by norm_num)]

theorem fold_24 : cosine 24 = -cosine 8 := by
  rw [cosine_half 24 8 (by norm_num)]

theorem fold_25 : cosine 25 = -cosine 7 := by
  rw [cosine_half 25 7 (by norm_num)]

theorem fold_26 : cosine 26 = -cosine 6 := by
  rw [cosine_half 26 6 (by norm_num)]

theorem fold_27 : cosine 27 = -cosine 5 := by
  rw [cosine_half 27 5 (by norm_num)]

theorem fold_28 : cosine 28 = -cosine 4 := by
  rw [cosine_half 28 4 (by norm_num)]

theorem fold_29 : cosine 29 = -cosine 3 := by
  rw [cosine_half 29 3 (by norm_num)]

theorem fold_30 : cosine 30 = -cosine 2 := by
  rw [cosine_half 30 2 (by norm_num)]

theorem fold_31 : cosine 31 = -cosine 1 := by
  rw [cosine_half 31 1 (by norm_num)]

theorem fold_33 : cosine 33 = -cosine 1 := by
  rw [cosine_back 33 31 1 (by norm_num), cosine_half 31 1 (by norm_num)]

theorem fold_34 : cosine 34 = -cosine 2 := by
  rw [cosine_back 34 30 1 (by norm_num), cosine_half 30 2 (by norm_num)]

theorem fold_35 : cosine 35 = -cosine 3 := by
  rw [cosine_back 35 29 1 (by norm_num), cosine_half 29 3 (by norm_num)]

theorem fold_36 : cosine 36 = -cosine 4 := by
  rw [cosine_back 36 28 1 (by norm_num), cosine_half 28 4 (by norm_num)]

theorem fold_38 : cosine 38 = -cosine 6 := by
  rw [cosine_back 38 26 1 (by norm_num), cosine_half 26 6 (by norm_num)]

theorem fold_39 : cosine 39 = -cosine 7 := by
  rw [cosine_back 39 25 1 (by norm_num), cosine_half 25 7 (by norm_num)]

theorem fold_40 : cosine 40 = -cosine 8 := by
  rw [cosine_back 40 24 1 (by norm_num), cosine_half 24 8 (by norm_num)]

theorem fold_42 : cosine 42 = -cosine 10 := by
  rw [cosine_back 42 22 1 (by norm_num), cosine_half 22 10 (by norm_num)]

theorem fold_44 : cosine 44 = -cosine 12 := by
  rw [cosine_back 44 20 1 (by norm_num), cosine_half 20 12 (by norm_num)]

theorem fold_45 : cosine 45 = -cosine 13 := by
  rw [cosine_back 45 19 1 (by norm_num), cosine_half 19 13 (by norm_num)]

theorem fold_46 : cosine 46 = -cosine 14 := by
  rw [cosine_back 46 18 1 (by norm_num), cosine_half 18 14 (by norm_num)]

theorem fold_49 : cosine 49 = cosine 15 := by
  rw [cosine_back 49 15 1 (by norm_num)]

theorem fold_50 : cosine 50 = cosine 14 := by
  rw [cosine_back 50 14 1 (by norm_num)]

theorem fold_51 : cosine 51 = cosine 13 := by
  rw [cosine_back 51 13 1 (by norm_num)]

theorem fold_52 : cosine 52 = cosine 12 := by
  rw [cosine_back 52 12 1 (by norm_num)]

theorem fold_54 : cosine 54 = cosine 10 := by
  rw [cosine_back 54 10 1 (by norm_num)]

theorem fold_55 : cosine 55 = cosine 9 := by
  rw [cosine_back 55 9 1 (by norm_num)]

theorem fold_56 : cosine 56 = cosine 8 := by
  rw [cosine_back 56 8 1 (by norm_num)]

theorem fold_57 : cosine 57 = cosine 7 := by
  rw [cosine_back 57 7 1 (by norm_num)]

theorem fold_58 : cosine 58 = cosine 6 := by
  rw [cosine_back 58 6 1 (by norm_num)]

theorem fold_60 : cosine 60 = cosine 4 := by
  rw [cosine_back 60 4 1 (by norm_num)]

theorem fold_62 : cosine 62 = cosine 2 := by
  rw [cosine_back 62 2 1 (by norm_num)]

theorem fold_63 : cosine 63 = cosine 1 := by
  rw [cosine_back 63 1 1 (by norm_num)]

theorem fold_65 : cosine 65 = cosine 1 := by
  rw [cosine_turn 65 1 1 (by norm_num)]

theorem fold_66 : cosine 66 = cosine 2 := by
  rw [cosine_turn 66 2 1 (by norm_num)]

theorem fold_68 : cosine 68 = cosine 4 := by
  rw [cosine_turn 68 4 1 (by norm_num)]

theorem fold_69 : cosine 69 = cosine 5 := by
  rw [cosine_turn 69 5 1 (by norm_num)]

theorem fold_70 : cosine 70 = cosine 6 := by
  rw [cosine_turn 70 6 1 (by norm_num)]

theorem fold_72 : cosine 72 = cosine 8 := by
  rw [cosine_turn 72 8 1 (by norm_num)]

theorem fold_75 : cosine 75 = cosine 11 := by
  rw [cosine_turn 75 11 1 (by norm_num)]

theorem fold_76 : cosine 76 = cosine 12 := by
  rw [cosine_turn 76 12 1 (by norm_num)]

theorem fold_77 : cosine 77 = cosine 13 := by
  rw [cosine_turn 77 13 1 (by norm_num)]

theorem fold_78 : cosine 78 = cosine 14 := by
  rw [cosine_turn 78 14 1 (by norm_num)]

theorem fold_81 : cosine 81 = -cosine 15 := by
  rw [cosine_turn 81 17 1 (by norm_num), cosine_half 17 15 (by norm_num)]

theorem fold_84 : cosine 84 = -cosine 12 := by
  rw [cosine_turn 84 20 1 (by norm_num), cosine_half 20 12 (by norm_num)]

theorem fold_85 : cosine 85 = -cosine 11 := by
  rw [cosine_turn 85 21 1 (by norm_num), cosine_half 21 11 (by norm_num)]

theorem fold_87 : cosine 87 = -cosine 9 := by
  rw [cosine_turn 87 23 1 (by norm_num), cosine_half 23 9 (by norm_num)]

theorem fold_88 : cosine 88 = -cosine 8 := by
  rw [cosine_turn 88 24 1 (by norm_num), cosine_half 24 8 (by norm_num)]

theorem fold_90 : cosine 90 = -cosine 6 := by
  rw [cosine_turn 90 26 1 (by norm_num), cosine_half 26 6 (by norm_num)]

theorem fold_91 : cosine 91 = -cosine 5 := by
  rw [cosine_turn 91 27 1 (by norm_num), cosine_half 27 5 (by norm_num)]

theorem fold_92 : cosine 92 = -cosine 4 := by
  rw [cosine_turn 92 28 1 (by norm_num), cosine_half 28 4 (by norm_num)]

theorem fold_93 : cosine 93 = -cosine 3 := by
  rw [cosine_turn 93 29 1 (by norm_num), cosine_half 29 3 (by norm_num)]

theorem fold_95 : cosine 95 = -cosine 1 := by
  rw [cosine_turn 95 31 1 (by norm_num), cosine_half 31 1 (by norm_num)]

theorem fold_98 : cosine 98 = -cosine 2 := by
  rw [cosine_back 98 30 2 (by norm_num), cosine_half 30 2 (by norm_num)]

theorem fold_99 : cosine 99 = -cosine 3 := by
  rw [cosine_back 99 29 2 (by norm_num), cosine_half 29 3 (by norm_num)]

theorem fold_100 : cosine 100 = -cosine 4 := by
  rw [cosine_back 100 28 2 (by norm_num), cosine_half 28 4 (by norm_num)]

theorem fold_102 : cosine 102 = -cosine 6 := by
  rw [cosine_back 102 26 2 (by norm_num), cosine_half 26 6 (by norm_num)]

theorem fold_104 : cosine 104 = -cosine 8 := by
  rw [cosine_back 104 24 2 (by norm_num), cosine_half 24 8 (by norm_num)]

theorem fold_105 : cosine 105 = -cosine 9 := by
  rw [cosine_back 105 23 2 (by norm_num), cosine_half 23 9 (by norm_num)]

theorem fold_108 : cosine 108 = -cosine 12 := by
  rw [cosine_back 108 20 2 (by norm_num), cosine_half 20 12 (by norm_num)]

theorem fold_110 : cosine 110 = -cosine 14 := by
  rw [cosine_back 110 18 2 (by norm_num), cosine_half 18 14 (by norm_num)]

theorem fold_114 : cosine 114 = cosine 14 := by
  rw [cosine_back 114 14 2 (by norm_num)]

theorem fold_115 : cosine 115 = cosine 13 := by
  rw [cosine_back 115 13 2 (by norm_num)]

theorem fold_116 : cosine 116 = cosine 12 := by
  rw [cosine_back 116 12 2 (by norm_num)]

theorem fold_117 : cosine 117 = cosine 11 := by
  rw [cosine_back 117 11 2 (by norm_num)]

theorem fold_119 : cosine 119 = cosine 9 := by
  rw [cosine_back 119 9 2 (by norm_num)]

theorem fold_120 : cosine 120 = cosine 8 := by
  rw [cosine_back 120 8 2 (by norm_num)]

theorem fold_121 : cosine 121 = cosine 7 := by
  rw [cosine_back 121 7 2 (by norm_num)]

theorem fold_124 : cosine 124 = cosine 4 := by
  rw [cosine_back 124 4 2 (by norm_num)]

theorem fold_125 : cosine 125 = cosine 3 := by
  rw [cosine_back 125 3 2 (by norm_num)]

theorem fold_126 : cosine 126 = cosine 2 := by
  rw [cosine_back 126 2 2 (by norm_num)]

theorem fold_130 : cosine 130 = cosine 2 := by
  rw [cosine_turn 130 2 2 (by norm_num)]

theorem fold_132 : cosine 132 = cosine 4 := by
  rw [cosine_turn 132 4 2 (by norm_num)]

theorem fold_133 : cosine 133 = cosine 5 := by
  rw [cosine_turn 133 5 2 (by norm_num)]

theorem fold_135 : cosine 135 = cosine 7 := by
  rw [cosine_turn 135 7 2 (by norm_num)]

theorem fold_136 : cosine 136 = cosine 8 := by
  rw [cosine_turn 136 8 2 (by norm_num)]

theorem fold_138 : cosine 138 = cosine 10 := by
  rw [cosine_turn 138 10 2 (by norm_num)]

theorem fold_143 : cosine 143 = cosine 15 := by
  rw [cosine_turn 143 15 2 (by norm_num)]

theorem fold_145 : cosine 145 = -cosine 15 := by
  rw [cosine_turn 145 17 2 (by norm_num), cosine_half 17 15 (by norm_num)]

theorem fold_147 : cosine 147 = -cosine 13 := by
  rw [cosine_turn 147 19 2 (by norm_num), cosine_half 19 13 (by norm_num)]

theorem fold_150 : cosine 150 = -cosine 10 := by
  rw [cosine_turn 150 22 2 (by norm_num), cosine_half 22 10 (by norm_num)]

theorem fold_152 : cosine 152 = -cosine 8 := by
  rw [cosine_turn 152 24 2 (by norm_num), cosine_half 24 8 (by norm_num)]

theorem fold_153 : cosine 153 = -cosine 7 := by
  rw [cosine_turn 153 25 2 (by norm_num), cosine_half 25 7 (by norm_num)]

theorem fold_154 : cosine 154 = -cosine 6 := by
  rw [cosine_turn 154 26 2 (by norm_num), cosine_half 26 6 (by norm_num)]

theorem fold_155 : cosine 155 = -cosine 5 := by
  rw [cosine_turn 155 27 2 (by norm_num), cosine_half 27 5 (by norm_num)]

theorem fold_156 : cosine 156 = -cosine 4 := by
  rw [cosine_turn 156 28 2 (by norm_num), cosine_half 28 4 (by norm_num)]

theorem fold_161 : cosine 161 = -cosine 1 := by
  rw [cosine_back 161 31 3 (by norm_num), cosine_half 31 1 (by norm_num)]

theorem fold_162 : cosine 162 = -cosine 2 := by
  rw [cosine_back 162 30 3 (by norm_num), cosine_half 30 2 (by norm_num)]

theorem fold_165 : cosine 165 = -cosine 5 := by
  rw [cosine_back 165 27 3 (by norm_num), cosine_half 27 5 (by norm_num)]

theorem fold_168 : cosine 168 = -cosine 8 := by
  rw [cosine_back 168 24 3 (by norm_num), cosine_half 24 8 (by norm_num)]

theorem fold_169 : cosine 169 = -cosine 9 := by
  rw [cosine_back 169 23 3 (by norm_num), cosine_half 23 9 (by norm_num)]

theorem fold_170 : cosine 170 = -cosine 10 := by
  rw [cosine_back 170 22 3 (by norm_num), cosine_half 22 10 (by norm_num)]

theorem fold_171 : cosine 171 = -cosine 11 := by
  rw [cosine_back 171 21 3 (by norm_num), cosine_half 21 11 (by norm_num)]

theorem fold_174 : cosine 174 = -cosine 14 := by
  rw [cosine_back 174 18 3 (by norm_num), cosine_half 18 14 (by norm_num)]

theorem fold_175 : cosine 175 = -cosine 15 := by
  rw [cosine_back 175 17 3 (by norm_num), cosine_half 17 15 (by norm_num)]

theorem fold_180 : cosine 180 = cosine 12 := by
  rw [cosine_back 180 12 3 (by norm_num)]

theorem fold_182 : cosine 182 = cosine 10 := by
  rw [cosine_back 182 10 3 (by norm_num)]

theorem fold_184 : cosine 184 = cosine 8 := by
  rw [cosine_back 184 8 3 (by norm_num)]

theorem fold_186 : cosine 186 = cosine 6 := by
  rw [cosine_back 186 6 3 (by norm_num)]

theorem fold_187 : cosine 187 = cosine 5 := by
  rw [cosine_back 187 5 3 (by norm_num)]

theorem fold_189 : cosine 189 = cosine 3 := by
  rw [cosine_back 189 3 3 (by norm_num)]

theorem fold_190 : cosine 190 = cosine 2 := by
  rw [cosine_back 190 2 3 (by norm_num)]

theorem fold_195 : cosine 195 = cosine 3 := by
  rw [cosine_turn 195 3 3 (by norm_num)]

theorem fold_200 : cosine 200 = cosine 8 := by
  rw [cosine_turn 200 8 3 (by norm_num)]

theorem fold_203 : cosine 203 = cosine 11 := by
  rw [cosine_turn 203 11 3 (by norm_num)]

theorem fold_204 : cosine 204 = cosine 12 := by
  rw [cosine_turn 204 12 3 (by norm_num)]

theorem fold_207 : cosine 207 = cosine 15 := by
  rw [cosine_turn 207 15 3 (by norm_num)]

theorem fold_209 : cosine 209 = -cosine 15 := by
  rw [cosine_turn 209 17 3 (by norm_num), cosine_half 17 15 (by norm_num)]

theorem fold_210 : cosine 210 = -cosine 14 := by
  rw [cosine_turn 210 18 3 (by norm_num), cosine_half 18 14 (by norm_num)]

theorem fold_216 : cosine 216 = -cosine 8 := by
  rw [cosine_turn 216 24 3 (by norm_num), cosine_half 24 8 (by norm_num)]

theorem fold_217 : cosine 217 = -cosine 7 := by
  rw [cosine_turn 217 25 3 (by norm_num), cosine_half 25 7 (by norm_num)]

theorem fold_221 : cosine 221 = -cosine 3 := by
  rw [cosine_turn 221 29 3 (by norm_num), cosine_half 29 3 (by norm_num)]

theorem fold_225 : cosine 225 = -cosine 1 := by
  rw [cosine_back 225 31 4 (by norm_num), cosine_half 31 1 (by norm_num)]

theorem fold_228 : cosine 228 = -cosine 4 := by
  rw [cosine_back 228 28 4 (by norm_num), cosine_half 28 4 (by norm_num)]

theorem fold_230 : cosine 230 = -cosine 6 := by
  rw [cosine_back 230 26 4 (by norm_num), cosine_half 26 6 (by norm_num)]

theorem fold_231 : cosine 231 = -cosine 7 := by
  rw [cosine_back 231 25 4 (by norm_num), cosine_half 25 7 (by norm_num)]

theorem fold_232 : cosine 232 = -cosine 8 := by
  rw [cosine_back 232 24 4 (by norm_num), cosine_half 24 8 (by norm_num)]

theorem fold_238 : cosine 238 = -cosine 14 := by
  rw [cosine_back 238 18 4 (by norm_num), cosine_half 18 14 (by norm_num)]

theorem fold_243 : cosine 243 = cosine 13 := by
  rw [cosine_back 243 13 4 (by norm_num)]

theorem fold_247 : cosine 247 = cosine 9 := by
  rw [cosine_back 247 9 4 (by norm_num)]

theorem fold_248 : cosine 248 = cosine 8 := by
  rw [cosine_back 248 8 4 (by norm_num)]

theorem fold_250 : cosine 250 = cosine 6 := by
  rw [cosine_back 250 6 4 (by norm_num)]

theorem fold_252 : cosine 252 = cosine 4 := by
  rw [cosine_back 252 4 4 (by norm_num)]

theorem fold_253 : cosine 253 = cosine 3 := by
  rw [cosine_back 253 3 4 (by norm_num)]

theorem fold_255 : cosine 255 = cosine 1 := by
  rw [cosine_back 255 1 4 (by norm_num)]

theorem fold_261 : cosine 261 = cosine 5 := by
  rw [cosine_turn 261 5 4 (by norm_num)]

theorem fold_266 : cosine 266 = cosine 10 := by
  rw [cosine_turn 266 10 4 (by norm_num)]

theorem fold_270 : cosine 270 = cosine 14 := by
  rw [cosine_turn 270 14 4 (by norm_num)]

theorem fold_273 : cosine 273 = -cosine 15 := by
  rw [cosine_turn 273 17 4 (by norm_num), cosine_half 17 15 (by norm_num)]

theorem fold_275 : cosine 275 = -cosine 13 := by
  rw [cosine_turn 275 19 4 (by norm_num), cosine_half 19 13 (by norm_num)]

theorem fold_276 : cosine 276 = -cosine 12 := by
  rw [cosine_turn 276 20 4 (by norm_num), cosine_half 20 12 (by norm_num)]

theorem fold_279 : cosine 279 = -cosine 9 := by
  rw [cosine_turn 279 23 4 (by norm_num), cosine_half 23 9 (by norm_num)]

theorem fold_285 : cosine 285 = -cosine 3 := by
  rw [cosine_turn 285 29 4 (by norm_num), cosine_half 29 3 (by norm_num)]

theorem fold_290 : cosine 290 = -cosine 2 := by
  rw [cosine_back 290 30 5 (by norm_num), cosine_half 30 2 (by norm_num)]

theorem fold_294 : cosine 294 = -cosine 6 := by
  rw [cosine_back 294 26 5 (by norm_num), cosine_half 26 6 (by norm_num)]

theorem fold_297 : cosine 297 = -cosine 9 := by
  rw [cosine_back 297 23 5 (by norm_num), cosine_half 23 9 (by norm_num)]

theorem fold_299 : cosine 299 = -cosine 11 := by
  rw [cosine_back 299 21 5 (by norm_num), cosine_half 21 11 (by norm_num)]

theorem fold_300 : cosine 300 = -cosine 12 := by
  rw [cosine_back 300 20 5 (by norm_num), cosine_half 20 12 (by norm_num)]

theorem fold_310 : cosine 310 = cosine 10 := by
  rw [cosine_back 310 10 5 (by norm_num)]

theorem fold_315 : cosine 315 = cosine 5 := by
  rw [cosine_back 315 5 5 (by norm_num)]

theorem fold_319 : cosine 319 = cosine 1 := by
  rw [cosine_back 319 1 5 (by norm_num)]

theorem fold_322 : cosine 322 = cosine 2 := by
  rw [cosine_turn 322 2 5 (by norm_num)]

theorem fold_324 : cosine 324 = cosine 4 := by
  rw [cosine_turn 324 4 5 (by norm_num)]

theorem fold_325 : cosine 325 = cosine 5 := by
  rw [cosine_turn 325 5 5 (by norm_num)]

theorem fold_341 : cosine 341 = -cosine 11 := by
  rw [cosine_turn 341 21 5 (by norm_num), cosine_half 21 11 (by norm_num)]

theorem fold_345 : cosine 345 = -cosine 7 := by
  rw [cosine_turn 345 25 5 (by norm_num), cosine_half 25 7 (by norm_num)]

theorem fold_348 : cosine 348 = -cosine 4 := by
  rw [cosine_turn 348 28 5 (by norm_num), cosine_half 28 4 (by norm_num)]

theorem fold_350 : cosine 350 = -cosine 2 := by
  rw [cosine_turn 350 30 5 (by norm_num), cosine_half 30 2 (by norm_num)]

theorem fold_351 : cosine 351 = -cosine 1 := by
  rw [cosine_turn 351 31 5 (by norm_num), cosine_half 31 1 (by norm_num)]

theorem fold_372 : cosine 372 = cosine 12 := by
  rw [cosine_back 372 12 6 (by norm_num)]

theorem fold_375 : cosine 375 = cosine 9 := by
  rw [cosine_back 375 9 6 (by norm_num)]

theorem fold_377 : cosine 377 = cosine 7 := by
  rw [cosine_back 377 7 6 (by norm_num)]

theorem fold_378 : cosine 378 = cosine 6 := by
  rw [cosine_back 378 6 6 (by norm_num)]

theorem fold_403 : cosine 403 = -cosine 13 := by
  rw [cosine_turn 403 19 6 (by norm_num), cosine_half 19 13 (by norm_num)]

theorem fold_405 : cosine 405 = -cosine 11 := by
  rw [cosine_turn 405 21 6 (by norm_num), cosine_half 21 11 (by norm_num)]

theorem fold_406 : cosine 406 = -cosine 10 := by
  rw [cosine_turn 406 22 6 (by norm_num), cosine_half 22 10 (by norm_num)]

theorem fold_434 : cosine 434 = cosine 14 := by
  rw [cosine_back 434 14 7 (by norm_num)]

theorem fold_435 : cosine 435 = cosine 13 := by
  rw [cosine_back 435 13 7 (by norm_num)]

theorem fold_465 : cosine 465 = -cosine 15 := by
  rw [cosine_turn 465 17 7 (by norm_num), cosine_half 17 15 (by norm_num)]

theorem exact_0 (x : Nat → ℝ) : dctInv16 reals cosine x 0 = inverseDct x 0 := by
  rw [line_0, inverseDct]
  simp only [Finset.sum_range_succ, Finset.sum_range_zero, zero_add, weight_zero]
  norm_num [weight]
  try simp only [ cosine_zero]
  ring

theorem exact_1 (x : Nat → ℝ) : dctInv16 reals cosine x 1 = inverseDct x 1 := by
  rw [line_1, inverseDct]
  simp only [Finset.sum_range_succ, Finset.sum_range_zero, zero_add, weight_zero]
  norm_num [weight]
  try simp only [fold_18, fold_21, fold_24, fold_27, fold_30, fold_33, fold_36, fold_39, fold_42, fold_45, cosine_zero]
  ring

theorem exact_2 (x : Nat → ℝ) : dctInv16 reals cosine x 2 = inverseDct x 2 := by
  rw [line_2, inverseDct]
  simp only [Finset.sum_range_succ, Finset.sum_range_zero, zero_add, weight_zero]
  norm_num [weight]
  try simp only [fold_20, fold_25, fold_30, fold_35, fold_40, fold_45, fold_50, fold_55, fold_60, fold_65, fold_70, fold_75, cosine_zero]
  ring

theorem exact_3 (x : Nat → ℝ) : dctInv16 reals cosine x 3 = inverseDct x 3 := by
  rw [line_3, inverseDct]
  simp only [Finset.sum_range_succ, Finset.sum_range_zero, zero_add, weight_zero]
  norm_num [weight]
  try simp only [fold_21, fold_28, fold_35, fold_42, fold_49, fold_56, fold_63, fold_70, fold_77, fold_84, fold_91, fold_98, fold_105,
    cosine_zero]
  ring

theorem exact_4 (x : Nat → ℝ) : dctInv16 reals cosine x 4 = inverseDct x 4 := by
  rw [line_4, inverseDct]
  simp only [Finset.sum_range_succ, Finset.sum_range_zero, zero_add, weight_zero]
  norm_num [weight]
  try simp only [fold_18, fold_27, fold_36, fold_45, fold_54, fold_63, fold_72, fold_81, fold_90, fold_99, fold_108, fold_117, fold_126,
    fold_135, cosine_zero]
  ring

theorem exact_5 (x : Nat → ℝ) : dctInv16 reals cosine x 5 = inverseDct x 5 := by
  rw [line_5, inverseDct]
  simp only [Finset.sum_range_succ, Finset.sum_range_zero, zero_add, weight_zero]
  norm_num [weight]
  try simp only [fold_22, fold_33, fold_44, fold_55, fold_66, fold_77, fold_88, fold_99, fold_110, fold_121, fold_132, fold_143,
    fold_154, fold_165, cosine_zero]
  ring

theorem exact_6 (x : Nat → ℝ) : dctInv16 reals cosine x 6 = inverseDct x 6 := by
  rw [line_6, inverseDct]
  simp only [Finset.sum_range_succ, Finset.sum_range_zero, zero_add, weight_zero]
  norm_num [weight]
  try simp only [fold_26, fold_39, fold_52, fold_65, fold_78, fold_91, fold_104, fold_117, fold_130, fold_143, fold_156, fold_169,
    fold_182, fold_195, cosine_zero]
  ring

theorem exact_7 (x : Nat → ℝ) : dctInv16 reals cosine x 7 = inverseDct x 7 := by
  rw [line_7, inverseDct]
  simp only [Finset.sum_range_succ, Finset.sum_range_zero, zero_add, weight_zero]
  norm_num [weight]
  try simp only [fold_30, fold_45, fold_60, fold_75, fold_90, fold_105, fold_120, fold_135, fold_150, fold_165, fold_180, fold_195,
    fold_210, fold_225, cosine_zero]
  ring

theorem exact_8 (x : Nat → ℝ) : dctInv16 reals cosine x 8 = inverseDct x 8 := by
  rw [line_8, inverseDct]
  simp only [Finset.sum_range_succ, Finset.sum_range_zero, zero_add, weight_zero]
  norm_num [weight]
  try simp only [fold_17, fold_34, fold_51, fold_68, fold_85, fold_102, fold_119, fold_136, fold_153, fold_170, fold_187, fold_204,
    fold_221, fold_238, fold_255, cosine_zero]
  ring

theorem exact_9 (x : Nat → ℝ) : dctInv16 reals cosine x 9 = inverseDct x 9 := by
  rw [line_9, inverseDct]
  simp only [Finset.sum_range_succ, Finset.sum_range_zero, zero_add, weight_zero]
  norm_num [weight]
  try simp only [fold_19, fold_38, fold_57, fold_76, fold_95, fold_114, fold_133, fold_152, fold_171, fold_190, fold_209, fold_228,
    fold_247, fold_266, fold_285, cosine_zero]
  ring

theorem exact_10 (x : Nat → ℝ) : dctInv16 reals cosine x 10 = inverseDct x 10 := by
  rw [line_10, inverseDct]
  simp only [Finset.sum_range_succ, Finset.sum_range_zero, zero_add, weight_zero]
  norm_num [weight]
  try simp only [fold_21, fold_42, fold_63, fold_84, fold_105, fold_126, fold_147, fold_168, fold_189, fold_210, fold_231, fold_252,
    fold_273, fold_294, fold_315, cosine_zero]
  ring

theorem exact_11 (x : Nat → ℝ) : dctInv16 reals cosine x 11 = inverseDct x 11 := by
  rw [line_11, inverseDct]
  simp only [Finset.sum_range_succ, Finset.sum_range_zero, zero_add, weight_zero]
  norm_num [weight]
  try simp only [fold_23, fold_46, fold_69, fold_92, fold_115, fold_138, fold_161, fold_184, fold_207, fold_230, fold_253, fold_276,
    fold_299, fold_322, fold_345, cosine_zero]
  ring

theorem exact_12 (x : Nat → ℝ) : dctInv16 reals cosine x 12 = inverseDct x 12 := by
  rw [line_12, inverseDct]
  simp only [Finset.sum_range_succ, Finset.sum_range_zero, zero_add, weight_zero]
  norm_num [weight]
  try simp only [fold_25, fold_50, fold_75, fold_100, fold_125, fold_150, fold_175, fold_200, fold_225, fold_250, fold_275, fold_300,
    fold_325, fold_350, fold_375, cosine_zero]
  ring

theorem exact_13 (x : Nat → ℝ) : dctInv16 reals cosine x 13 = inverseDct x 13 := by
  rw [line_13, inverseDct]
  simp only [Finset.sum_range_succ, Finset.sum_range_zero, zero_add, weight_zero]
  norm_num [weight]
  try simp only [fold_27, fold_54, fold_81, fold_108, fold_135, fold_162, fold_189, fold_216, fold_243, fold_270, fold_297, fold_324,
    fold_351, fold_378, fold_405, cosine_zero]
  ring

theorem exact_14 (x : Nat → ℝ) : dctInv16 reals cosine x 14 = inverseDct x 14 := by
  rw [line_14, inverseDct]
  simp only [Finset.sum_range_succ, Finset.sum_range_zero, zero_add, weight_zero]
  norm_num [weight]
  try simp only [fold_29, fold_58, fold_87, fold_116, fold_145, fold_174, fold_203, fold_232, fold_261, fold_290, fold_319, fold_348,
    fold_377, fold_406, fold_435, cosine_zero]
  ring

theorem exact_15 (x : Nat → ℝ) : dctInv16 reals cosine x 15 = inverseDct x 15 := by
  rw [line_15, inverseDct]
  simp only [Finset.sum_range_succ, Finset.sum_range_zero, zero_add, weight_zero]
  norm_num [weight]
  try simp only [fold_31, fold_62, fold_93, fold_124, fold_155, fold_186, fold_217, fold_248, fold_279, fold_310, fold_341, fold_372,
    fold_403, fold_434, fold_465, cosine_zero]
  ring

/-- the transform of one line is the sum of cosines -/
theorem dct_exact (x : Nat → ℝ) (n : Nat) (h : n < 16) : dctInv16 reals cosine x n = inverseDct x n := by
  interval_cases n
  · exact exact_0 x
  · exact exact_1 x
  · exact exact_2 x
  · exact exact_3 x
  · exact exact_4 x
  · exact exact_5 x
  · exact exact_6 x
  · exact exact_7 x
  · exact exact_8 x
  · exact exact_9 x
  · exact exact_10 x
  · exact exact_11 x
  · exact exact_12 x
  · exact exact_13 x
  · exact exact_14 x
  · exact exact_15 x

/-- the transform of a square is the double sum of cosines -/
theorem dct_exact_square (x : Nat → ℝ) (i j : Nat) (hi : i < 16) (hj : j < 16) : dctInv16x16 reals cosine x i j = inverseDct2 x i j := by
  rw [dctInv16x16, dct_exact _ _ hi, inverseDct, inverseDct2]
  refine Finset.sum_congr rfl fun u _ => ?_
  rw [dct_exact _ _ hj, inverseDct, Finset.mul_sum, Finset.sum_mul]
  refine Finset.sum_congr rfl fun v _ => ?_
  ring

end Verif.Moc
