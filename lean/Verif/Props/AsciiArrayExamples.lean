/-
C88, C89 at work on texts.
-/
import Verif.Props.AsciiArray

namespace Verif.AsciiArray
open Verif.Py Verif.Image Verif.AsciiArray.Spec Verif.ImageFile.Spec Verif.Float

variable (Rd : Rounding double) (Rs : Rounding single) (repr : Option ℚ → Str)

/-- the numbers -12, 3.5, +4. and 0 -/
def four : List Numeral := [⟨some true, 1, [2], none⟩, ⟨none, 3, [], some [5]⟩, ⟨some false, 4, [], some []⟩, ⟨none, 0, [], none⟩]

def fourSeps : List Str := [c!", ", c!"\n", c!"\t ", []]

example : layout c!" " (numbers four fourSeps) = c!" -12, 3.5\n+4.\t 0" := by decide

theorem four_laid : Laid c!" " (numbers four fourSeps) := by
  refine ⟨?_, ?_, ?_⟩
  · unfold Blank; decide
  · unfold Blank; decide
  · decide

theorem v35 : (⟨none, 3, [], some [5]⟩ : Numeral).value = 7 / 2 := by decide +kernel
theorem v4 : (⟨some false, 4, [], some []⟩ : Numeral).value = 4 := by decide +kernel

/-- C88 holds for the file ` -12, 3.5` / `+4.  0`, as an array of 2 by 2 -/
example : ∃ A, readArray Rd Rs repr c!" -12, 3.5\n+4.\t 0" (.error .valueError) ⟨some c!"ASCII", [2, 2], none⟩ 77 = .ok A ∧
    A.get [0, 0] = some (.real (some (-12))) ∧ A.get [1, 0] = some (.real (some 4)) := by
  obtain ⟨A, h1, h2⟩ := C88_exact Rd Rs repr c!" " four fourSeps ⟨some c!"ASCII", [2, 2], none⟩ 77 (.error .valueError)
    (by decide) rfl rfl four_laid rfl (by
      intro n hn
      simp only [four, List.mem_cons, List.not_mem_nil, or_false] at hn
      rcases hn with rfl | rfl | rfl | rfl
      · exact Or.inl ⟨-12, by decide, by simp [Numeral.value, number]⟩
      · refine Or.inr ⟨⟨7, -1, by simp [double], by simp [double], by simp [double], by rw [v35]; norm_num⟩, ?_⟩
        have h1 : (1 : ℚ) ≤ 2 ^ (971 : Nat) := one_le_pow₀ (by norm_num)
        have he : limit double = (2 ^ 53 - 1 / 2) * 2 ^ (971 : Nat) := by
          unfold limit double
          simp only
          rw [← zpow_natCast (2 : ℚ) 971]; rfl
        rw [he]
        rw [v35]
        generalize (2 : ℚ) ^ (971 : Nat) = X at h1
        rw [abs_of_nonneg (by norm_num)]
        norm_num
        linarith
      · exact Or.inl ⟨4, by decide, v4⟩
      · exact Or.inl ⟨0, by decide, by simp [Numeral.value, number]⟩)
  refine ⟨A, h1, ?_, ?_⟩
  · obtain ⟨n, hn, h⟩ := h2 [0, 0] (by unfold Within; exact .cons (by decide) (.cons (by decide) .nil))
    have : n = ⟨some true, 1, [2], none⟩ := by
      have e : four[lastFastest [2, 2] [0, 0]]? = some ⟨some true, 1, [2], none⟩ := rfl
      rw [show ((⟨some c!"ASCII", [2, 2], none⟩ : Block).axisItems) = [2, 2] from rfl, e] at hn
      exact (Option.some.inj hn).symm
    rw [h, this]
    simp [Numeral.value, number]
  · obtain ⟨n, hn, h⟩ := h2 [1, 0] (by unfold Within; exact .cons (by decide) (.cons (by decide) .nil))
    have : n = ⟨some false, 4, [], some []⟩ := by
      have e : four[lastFastest [2, 2] [1, 0]]? = some ⟨some false, 4, [], some []⟩ := rfl
      rw [show ((⟨some c!"ASCII", [2, 2], none⟩ : Block).axisItems) = [2, 2] from rfl, e] at hn
      exact (Option.some.inj hn).symm
    rw [h, this, v4]

/- the numbers found -/
example : findall c!" -12, 3.5\n+4.\t 0" = [c!"-12", c!"3.5", c!"+4.", c!"0"] := by decide
example : findall c!"1.5E+03 -2.0e-1" = [c!"1.5", c!"+03", c!"-2.0", c!"-1"] := by decide
example : findall c!".25 -.5 1-2" = [c!"25", c!"5", c!"1", c!"-2"] := by decide
example : findall c!"PDS_VERSION_ID = PDS3\n1 2" = [c!"3", c!"1", c!"2"] := by decide

example : readArray Rd Rs repr c!"1.5E+03" (.error .valueError) ⟨none, [1], none⟩ 0 = .error .valueError :=
  C89_exponents Rd Rs repr [] [(⟨none, 1, [], some [5]⟩, 'E', ⟨some false, 0, [3], none⟩)] [[]] ⟨none, [1], none⟩ 0 _
    (by decide) rfl (by decide) ⟨by unfold Blank; decide, by unfold Blank; decide, by decide⟩ rfl (by decide)

example : ∃ A, readArray Rd Rs repr c!"-.25 .5" (.error .valueError) ⟨none, [2], none⟩ 0 = .ok A ∧
    A.get [0] = some (.real (some 25)) := by
  obtain ⟨A, h1, h2⟩ := C89_no_leading_digit Rd Rs repr [] [(some true, 2, [5]), (none, 5, [])] [[' '], []] ⟨none, [2], none⟩ 0
    (.error .valueError) (by decide) rfl rfl ⟨by unfold Blank; decide, by unfold Blank; decide, by decide⟩ rfl (by decide)
  refine ⟨A, h1, ?_⟩
  obtain ⟨p, hp, h⟩ := h2 [0] (by unfold Within; exact .cons (by decide) .nil)
  have e : [((some true, 2, [5]) : Option Bool × Fin 10 × List (Fin 10)), (none, 5, [])][lastFastest [2] [0]]? =
    some (some true, 2, [5]) := rfl
  rw [show ((⟨none, [2], none⟩ : Block).axisItems) = [2] from rfl, e] at hp
  rw [h, ← Option.some.inj hp]
  rfl

example : readArray Rd Rs repr c!"PDS3\n1 2" (.error .valueError) ⟨none, [2], none⟩ 6 = .error .valueError :=
  C89_attached Rd Rs repr c!"PDS3" [⟨none, 1, [], none⟩, ⟨none, 2, [], none⟩] [[' '], []] ⟨none, [2], none⟩ 6 _ (by decide)
    ⟨'3', by decide, by decide⟩ rfl ⟨by unfold Blank; decide, by unfold Blank; decide, by decide⟩ rfl

example : readArray Rd Rs repr c!"ON OFF" (.error .valueError) ⟨none, [2], none⟩ 0 = .error .valueError :=
  C89_words Rd Rs repr _ _ _ _ (by decide) (by decide) (by decide)

end Verif.AsciiArray
