/-
C90, C91 at work.
-/
import Verif.Props.Uniform
import Verif.Props.Ibm

namespace Verif.Uniform
open Verif.Py Verif.Float Verif.Uniform.Spec

/- there are such ways to round -/
example : Nonempty (Rounding double) := rounding_exists double (by decide)

variable (R : Rounding double) (L : Libm) (memory : Nat → Num)

/-- four records from 10 in steps of -3 -/
example : ∃ vs, uniformField R L memory ⟨none, .int 10, .int 1, .int (-3), none⟩ 4 = .ok vs ∧ vs.length = 4 ∧
    vs[3]? = some (.real (some 1)) := by
  have hv : ∀ j < 4, |((10 + (j : Nat) * (-3) : Int))| ≤ 2 ^ 53 := by intro j hj; interval_cases j <;> decide
  obtain ⟨vs, h1, h2, h3⟩ := C90_linear_integers R L memory ⟨none, .int 10, .int 1, .int (-3), none⟩ 4 (by decide) (Or.inl rfl)
    10 (-3) rfl rfl (by rintro ⟨b, hb, h⟩; cases hb; revert h; unfold Beyond64; decide) (by
      intro j hj
      have : |(((10 + (j : Nat) * (-3) : Int)) : ℚ)| ≤ 2 ^ 53 := by exact_mod_cast hv j hj
      exact lt_of_le_of_lt this (limit_big 53 (by norm_num)))
  exact ⟨vs, h1, h2, (h3 3 (by decide)).2 (by decide)⟩

/-- a field of large integers, in capitals -/
example : ∃ vs, uniformField R L memory ⟨some c!"LINEAR", .int (10 ^ 30), .int (10 ^ 30 + 2), .int 1, none⟩ 3 = .ok vs ∧ vs.length = 3 ∧
    ∀ j < 3, vs[j]? = some (.int (10 ^ 30 + j * 1)) :=
  C90_linear_huge R L memory _ 3 (by decide) (Or.inr ⟨_, rfl, by decide⟩) (10 ^ 30) 1 (10 ^ 30 + 2) rfl rfl rfl
    (by unfold Beyond64; decide)

/-- 0.5, 0.75, 1.0, ... -/
example : ∃ vs, uniformField R L memory ⟨some c!"Linear", .real (some (1 / 2)), .real (some 1), .real (some (1 / 4)), none⟩ 3 = .ok vs ∧
    vs.length = 3 ∧ ∀ j < 3, vs[j]? = some (.real (some (1 / 2 + (j : Nat) * (1 / 4)))) := by
  refine C90_linear_exact R L memory _ 3 (by decide) (Or.inr ⟨_, rfl, by decide⟩) (1 / 2) (1 / 4) (Or.inr rfl) (Or.inr rfl)
    (by intro a b h; cases h) ?_
  intro j hj
  constructor
  · refine ⟨2 + j, -2, ?_, by simp [double], by simp [double], ?_⟩
    · interval_cases j <;> simp [double]
    · push_cast; norm_num; ring
  · refine lt_of_le_of_lt (b := 2 ^ 1) ?_ (limit_big 1 (by norm_num))
    interval_cases j <;> norm_num [abs_of_pos]

/-- a thousand records from 0.1 (rounded) in steps of 0.1 (rounded): within 1000 * 2^-45 -/
example (p : ℚ) (hp : |p| ≤ 1 / 8) (memory : Nat → Num) :
    ∃ vs, uniformField R L memory ⟨none, .real (some p), .real (some 100), .real (some p), none⟩ 1000 = .ok vs ∧ vs.length = 1000 ∧
      ∀ j < 1000, ∃ y, vs[j]? = some (.real (some y)) ∧ |y - (p + (j : Nat) * p)| ≤ j * (2 ^ 8 / 2 ^ 53) := by
  refine C90_linear_near R L memory _ 1000 8 (by decide) (by decide) (by decide) (Or.inl rfl) p p (Or.inr rfl) (Or.inr rfl)
    (by intro a b h; cases h) ?_
  intro j hj
  rw [show p + (j : ℚ) * p = (1 + j) * p by ring, abs_mul]
  have h1 : |(1 + j : ℚ)| ≤ 1000 := by
    rw [abs_of_nonneg (by positivity)]
    have : 1 + j ≤ 1000 := by omega
    exact_mod_cast this
  calc |(1 + j : ℚ)| * |p| ≤ 1000 * (1 / 8) := mul_le_mul h1 hp (abs_nonneg _) (by norm_num)
    _ ≤ 2 ^ (8 - 1) := by norm_num

/-- 1, 10, 100 -/
example : ∃ vs, uniformField R L memory ⟨some c!"Logarithmic", .int 1, .int 100, .int 10, none⟩ 3 = .ok vs ∧ vs.length = 3 ∧
    ∀ j < 3, vs[j]? = some (.real (some (R.fl (1 * 10 ^ j : Int)))) := by
  refine C90_logarithmic_integers R L memory _ 3 (by decide) _ rfl (by decide) 1 10 rfl rfl ?_ ?_
  · rintro ⟨b, hb, h⟩; cases hb; revert h; unfold Beyond64; decide
  · intro j hj
    refine lt_of_le_of_lt (b := 2 ^ 53) ?_ (limit_big 53 (by norm_num))
    interval_cases j <;> norm_num

/-- exponents of 2: 0, 1, log2 3, 2 -/
example (memory : Nat → ℝ) : ∃ vs, sampled realOps memory ⟨some c!"exponential", 0, 2, 1, some 2⟩ 4 = .ok vs ∧ vs.length = 4 ∧
    ∀ j < 4, ∃ x, vs[j]? = some x ∧ (2 : ℝ) ^ x = 2 ^ (0 : ℝ) + (j : Nat) * 1 :=
  C90_exponential memory _ 4 (by decide) _ rfl (by decide) 2 rfl (by norm_num) (by norm_num)
    (fun j _ => by show (0 : ℝ) < 2 ^ (0 : ℝ) + j * 1; rw [Real.rpow_zero]; positivity)

/-- the root of 81/1 in 4 steps is 3 -/
example (memory : Nat → ℝ) : ∃ vs, sampled realOps memory ⟨some c!"LOGARITHMIC", 1, 81, 3, none⟩ 5 = .ok vs ∧ vs[4]? = some 81 := by
  obtain ⟨vs, h1, -, -, h2⟩ := C90_logarithmic memory ⟨some c!"LOGARITHMIC", 1, 81, 3, none⟩ 5 (by decide) _ rfl (by decide)
  exact ⟨vs, h1, h2 (by norm_num) (by norm_num)⟩

/-- a million records from 2^53 - 1 in steps of 0.25 all show the first value -/
example : ∃ vs, uniformField R L memory ⟨none, .real (some (((2 ^ 53 - 1 : Int) : ℚ) * 2 ^ (0 : Int))), .real none, .real (some (1 / 4)), none⟩ 1000000 = .ok vs ∧
    vs.length = 1000000 ∧ ∀ j < 1000000, vs[j]? = some (.real (some (((2 ^ 53 - 1 : Int) : ℚ) * 2 ^ (0 : Int)))) :=
  C91_no_progress R L memory _ 1000000 (by decide) (Or.inl rfl) (2 ^ 53 - 1) 0 (1 / 4) (by norm_num) (by norm_num) rfl rfl
    (by norm_num [abs_of_pos])

/-- 2^53 + 1 -/
example : ∃ vs y, uniformField R L memory ⟨none, .int (2 ^ 53 + 1), .int (2 ^ 53 + 2), .int 1, none⟩ 2 = .ok vs ∧
    vs[0]? = some (.real (some y)) ∧ y ≠ ((2 ^ 53 + 1 + ((0 : Nat) : Int) * 1 : Int) : ℚ) := by
  refine C91_large_integers R L memory _ 2 (by decide) (Or.inl rfl) (2 ^ 53 + 1) 1 rfl rfl ?_ ?_ 0 (by decide) (by decide) (by decide)
  · rintro ⟨b, hb, h⟩; cases hb; revert h; unfold Beyond64; decide
  · intro j hj
    refine lt_of_le_of_lt (b := 2 ^ 54) ?_ (limit_big 54 (by norm_num))
    interval_cases j <;> norm_num

/-- a blank before the name of the scale -/
example (s : Sampling Num) (h : s.scale = some c!" Logarithmic") :
    sampled (pyOps R L false) memory s 3 = .ok [memory 0, memory 1, memory 2] :=
  C91_unknown_scale _ memory s 3 (by decide) _ h (by decide)

/-- the table of Props/Pds4Table with a sampled field: 5, 7 -/
def table : Pds4Table.Label :=
  { Pds4Table.demo with uniform := [⟨c!"S", [.elem (.real (some 5)), .elem (.real (some 7))]⟩] }

theorem table_readable : Pds4Table.Spec.Readable Pds4Table.demoEnv table Pds4Table.demoFile where
  some_records := Pds4Table.demo_placed.some_records
  whole := Pds4Table.demo_placed.whole
  divides := Pds4Table.demo_placed.divides
  located := Pds4Table.demo_placed.located
  within := Pds4Table.demo_placed.within
  values := Pds4Table.demo_placed.values
  depth := Pds4Table.demo_readable.depth

theorem table_named : Pds4Table.Spec.NamedTable table where
  body := Pds4Table.demo_named.body
  uniform := by
    intro u hu
    simp only [table, List.mem_singleton] at hu
    subst hu
    exact ⟨Pds4Table.nameOk_of (by decide), by decide⟩
  different := by decide

example : ∃ t, Pds4Table.readTable Pds4Table.demoEnv table Pds4Table.demoFile = .ok t ∧
    t[0]? = some (c!"S", [.elem (.real (some 5)), .elem (.real (some 7))]) := by
  have hv : ∀ j < 2, |((5 + (j : Nat) * 2 : Int))| ≤ 2 ^ 53 := by intro j hj; interval_cases j <;> decide
  obtain ⟨vs, h1, h2, h3⟩ := C90_linear_integers R L memory ⟨none, .int 5, .int 7, .int 2, none⟩ 2 (by decide) (Or.inl rfl)
    5 2 rfl rfl (by rintro ⟨b, hb, h⟩; cases hb; revert h; unfold Beyond64; decide) (by
      intro j hj
      have : |(((5 + (j : Nat) * 2 : Int)) : ℚ)| ≤ 2 ^ 53 := by exact_mod_cast hv j hj
      exact lt_of_le_of_lt this (limit_big 53 (by norm_num)))
  have hvs : vs = [.real (some 5), .real (some 7)] := by
    have g0 := (h3 0 (by decide)).2 (by decide)
    have g1 := (h3 1 (by decide)).2 (by decide)
    match vs, h2 with
    | [x, y], _ =>
      simp at g0 g1
      rw [g0, g1]
  obtain ⟨t, ht, hc⟩ := C90_columns R L memory Pds4Table.demoEnv table Pds4Table.demoFile table_readable table_named
    [(c!"S", ⟨none, .int 5, .int 7, .int 2, none⟩)] (.cons ⟨rfl, vs, h1, by rw [hvs]; rfl⟩ .nil)
  obtain ⟨vs', h1', -, cells, h, hcells⟩ := hc 0 _ rfl
  refine ⟨t, ht, ?_⟩
  have h1'' : uniformField R L memory ⟨none, .int 5, .int 7, .int 2, none⟩ 2 = .ok vs' := h1'
  rw [h1] at h1''
  cases h1''
  rw [hvs] at hcells
  cases hcells with
  | cons g0 hr => cases g0; cases hr with
    | cons g1 hr => cases g1; cases hr; exact h

/-- 10^400 is beyond all doubles -/
example : uniformField R L memory ⟨none, .int 1, .int 1, .int (10 ^ 400), none⟩ 5 = .error .overflowError := by
  refine C91_overflow R L memory _ 5 (Or.inl rfl) 1 (10 ^ 400) rfl rfl
    (by rintro ⟨b, hb, h⟩; cases hb; revert h; unfold Beyond64; decide) 1 (by decide) ?_
  decide +kernel

end Verif.Uniform
