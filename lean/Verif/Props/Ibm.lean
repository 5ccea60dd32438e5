import Verif.Spec.Ibm
import Mathlib.Data.Set.Finite.Basic
import Mathlib.Data.Set.Finite.Lattice
import Mathlib.Data.Finite.Prod
import Mathlib.Data.Set.Finite.Lemmas
import Mathlib.Order.Interval.Finset.Defs
import Mathlib.Data.Int.Interval
import Mathlib.Tactic.NormNum
import Mathlib.Tactic.Positivity
import Mathlib.Tactic.Linarith
import Mathlib.Tactic.Ring
import Mathlib.Tactic.FieldSimp

/-!
C16 and the limit C54: IBM System/360 floating point numbers.
-/

namespace Verif.Float

/-- Roundings exist, so theorems about all of them are not empty. -/
theorem rounding_exists (F : Format) (h : F.emin ≤ F.emax) : Nonempty (Rounding F) := by
  classical
  have hfin : {x : ℚ | Rep F x}.Finite := by
    have h1 : (Set.Icc (-(2 ^ F.p : Int)) (2 ^ F.p)).Finite := Set.finite_Icc _ _
    have h2 : (Set.Icc F.emin F.emax).Finite := Set.finite_Icc _ _
    refine ((h1.prod h2).image (fun q : Int × Int => (q.1 : ℚ) * 2 ^ q.2)).subset ?_
    rintro x ⟨k, e, hk, he, he', rfl⟩
    refine ⟨(k, e), ⟨⟨?_, ?_⟩, he, he'⟩, rfl⟩
    · have := (abs_lt.1 hk).1; exact le_of_lt this
    · have := (abs_lt.1 hk).2; exact le_of_lt this
  have hne : {x : ℚ | Rep F x}.Nonempty := ⟨0, 0, F.emin, by simp, le_refl _, h, by simp⟩
  have hex : ∀ x : ℚ, ∃ y, Rep F y ∧ ∀ z, Rep F z → |y - x| ≤ |z - x| := by
    intro x
    obtain ⟨y, hy, hmin⟩ := Set.exists_min_image _ (fun y => |y - x|) hfin hne
    exact ⟨y, hy, hmin⟩
  choose f hf hmin using hex
  refine ⟨⟨f, ?_, hf, hmin⟩⟩
  intro x hx
  have := hmin x x hx
  simp only [sub_self, abs_zero] at this
  have := abs_nonpos_iff.1 this
  linarith

theorem rep_neg {F : Format} {x : ℚ} (h : Rep F x) : Rep F (-x) := by
  obtain ⟨k, e, h1, h2, h3, rfl⟩ := h
  exact ⟨-k, e, by rwa [abs_neg], h2, h3, by push_cast; ring⟩

end Verif.Float

namespace Verif.Ibm
open Verif.Py Verif.Float Spec

theorem rep_scaled (m : Nat) (hm : m < 2 ^ 53) (t : Int) (h1 : -1074 ≤ t) (h2 : t ≤ 971) (s : Int) (hs : s = 1 ∨ s = -1) :
    Rep double ((s : ℚ) * (m : ℚ) * 2 ^ t) := by
  refine ⟨s * m, t, ?_, h1, h2, by push_cast; ring⟩
  have hm' : (m : Int) < 2 ^ 53 := by exact_mod_cast hm
  show |s * (m : Int)| < 2 ^ 53
  rcases hs with rfl | rfl
  · rw [one_mul, abs_of_nonneg (by positivity)]; exact hm'
  · rw [neg_one_mul, abs_neg, abs_of_nonneg (by positivity)]; exact hm'

theorem sixteen_pow (e : Int) : (16 : ℚ) ^ e = 2 ^ (4 * e) := by
  rw [zpow_mul]; norm_num

/-- the sign as the code computes it -/
theorem sign_eq (w r : Nat) (h : w < 2 ^ (r + 1)) :
    (1 - 2 * ((w >>> r &&& 1 : Nat) : Int) = 1 ∨ 1 - 2 * ((w >>> r &&& 1 : Nat) : Int) = -1) ∧
      ((1 - 2 * ((w >>> r &&& 1 : Nat) : Int) : Int) : ℚ) = (-1) ^ (w / 2 ^ r) := by
  rw [Nat.shiftRight_eq_div_pow, Nat.and_one_is_mod]
  have hlt : w / 2 ^ r < 2 := by
    rw [Nat.div_lt_iff_lt_mul (by positivity)]
    rw [pow_succ] at h; rw [Nat.mul_comm]; exact h
  have : w / 2 ^ r = 0 ∨ w / 2 ^ r = 1 := by
    generalize w / 2 ^ r = c at hlt; omega
  rcases this with h | h <;> rw [h] <;> simp

/-- all the computation after the conversion of the fraction is exact -/
theorem ibmToNp_eq (R : Rounding double) (sreg ereg w : Nat) (he : ereg ≤ 56) (hs : w < 2 ^ (sreg + 1))
    (hm : ∃ k a : Int, R.fl ((w % 2 ^ ereg : Nat) : ℚ) = k * 2 ^ a ∧ |k| < 2 ^ 53 ∧ 0 ≤ a ∧ a ≤ 56) :
    ibmToNp R sreg ereg (2 ^ ereg - 1) w =
      (-1) ^ (w / 2 ^ sreg) * (R.fl ((w % 2 ^ ereg : Nat) : ℚ) / 2 ^ ereg) * 16 ^ (((w / 2 ^ ereg % 128 : Nat) : Int) - 64) := by
  obtain ⟨k, a, hka, hk, ha0, ha1⟩ := hm
  obtain ⟨hsgn, hsv⟩ := sign_eq w sreg hs
  unfold ibmToNp
  simp only
  rw [Nat.and_two_pow_sub_one_eq_mod, show (0x7f : Nat) = 2 ^ 7 - 1 from rfl, Nat.and_two_pow_sub_one_eq_mod,
    Nat.shiftRight_eq_div_pow w ereg, show (2 : Nat) ^ 7 = 128 from rfl]
  have hx : w / 2 ^ ereg % 128 < 128 := Nat.mod_lt _ (by omega)
  generalize hE : w / 2 ^ ereg % 128 = E at *
  have e1 : R.fl ((16 : ℚ) ^ ((E : Int) - 64)) = 16 ^ ((E : Int) - 64) := by
    apply R.exact
    rw [sixteen_pow]
    refine ⟨1, 4 * ((E : Int) - 64), by norm_num [double], ?_, ?_, by simp⟩
    · show (-1074 : Int) ≤ _; omega
    · show _ ≤ (971 : Int); omega
  have e2 : R.fl ((2 : ℚ) ^ ereg) = 2 ^ ereg := by
    apply R.exact
    refine ⟨1, ereg, by norm_num [double], ?_, ?_, by simp⟩
    · show (-1074 : Int) ≤ _; omega
    · show _ ≤ (971 : Int); omega
  have h2 : (2 : ℚ) ≠ 0 := by norm_num
  have e3 : R.fl ((k : ℚ) * 2 ^ a / 2 ^ ereg) = k * 2 ^ a / 2 ^ ereg := by
    apply R.exact
    refine ⟨k, a - ereg, hk, ?_, ?_, by rw [zpow_sub₀ h2, zpow_natCast]; ring⟩
    · show (-1074 : Int) ≤ _; omega
    · show _ ≤ (971 : Int); omega
  generalize hS : (1 - 2 * ((w >>> sreg &&& 1 : Nat) : Int)) = S at *
  have hSk : |S * k| < 2 ^ 53 := by
    rcases hsgn with rfl | rfl
    · rwa [one_mul]
    · rwa [neg_one_mul, abs_neg]
  have e4 : R.fl ((S : ℚ) * ((k : ℚ) * 2 ^ a / 2 ^ ereg)) = (S : ℚ) * ((k : ℚ) * 2 ^ a / 2 ^ ereg) := by
    apply R.exact
    refine ⟨S * k, a - ereg, hSk, ?_, ?_, by rw [zpow_sub₀ h2, zpow_natCast]; push_cast; ring⟩
    · show (-1074 : Int) ≤ _; omega
    · show _ ≤ (971 : Int); omega
  have e5 : R.fl ((S : ℚ) * ((k : ℚ) * 2 ^ a / 2 ^ ereg) * 16 ^ ((E : Int) - 64)) =
      (S : ℚ) * ((k : ℚ) * 2 ^ a / 2 ^ ereg) * 16 ^ ((E : Int) - 64) := by
    apply R.exact
    refine ⟨S * k, a - ereg + 4 * ((E : Int) - 64), hSk, ?_, ?_, ?_⟩
    · show (-1074 : Int) ≤ _; omega
    · show _ ≤ (971 : Int); omega
    · rw [sixteen_pow, zpow_add₀ h2, zpow_sub₀ h2, zpow_natCast]; push_cast; ring
  rw [hka, e1, e2, e3, e4, e5, hsv]

/-- **C16 (short).** Every 32-bit IBM floating point number is converted to exactly its value. -/
theorem C16_short (R : Rounding double) (w : Nat) (hw : w < 2 ^ 32) : ibm32 R w = ibmValue 32 w := by
  have hm : w % 2 ^ 24 < 2 ^ 24 := Nat.mod_lt _ (by norm_num)
  have hfl : R.fl ((w % 2 ^ 24 : Nat) : ℚ) = ((w % 2 ^ 24 : Nat) : ℚ) := by
    apply R.exact
    have := rep_scaled (w % 2 ^ 24) (by omega) 0 (by omega) (by omega) 1 (.inl rfl)
    simpa using this
  have := ibmToNp_eq R 31 24 w (by omega) hw ⟨((w % 2 ^ 24 : Nat) : Int), 0, by rw [hfl, Int.cast_natCast, zpow_zero, mul_one], by
    rw [abs_of_nonneg (by positivity)]
    have : ((w % 2 ^ 24 : Nat) : Int) < 2 ^ 24 := by exact_mod_cast hm
    omega, by omega, by omega⟩
  rw [hfl] at this
  rw [ibm32, show (0x00ffffff : Nat) = 2 ^ 24 - 1 from rfl, this]
  rfl

/-- the conversion of a 56-bit fraction to float64 -/
theorem fraction56 (R : Rounding double) (m : Nat) (hm : m < 2 ^ 56) :
    (∃ k a : Int, R.fl (m : ℚ) = k * 2 ^ a ∧ |k| < 2 ^ 53 ∧ 0 ≤ a ∧ a ≤ 56) ∧
      |R.fl (m : ℚ) - m| ≤ 1 / 2 ^ 53 * m := by
  by_cases h53 : m < 2 ^ 53
  · have hfl : R.fl (m : ℚ) = m := by
      apply R.exact
      have := rep_scaled m h53 0 (by omega) (by omega) 1 (.inl rfl)
      simpa using this
    refine ⟨⟨m, 0, by rw [hfl]; simp, ?_, by omega, by omega⟩, ?_⟩
    · rw [abs_of_nonneg (by positivity)]; exact_mod_cast h53
    · rw [hfl, sub_self, abs_zero]; positivity
  · have hlo : (2 : ℚ) ^ 53 ≤ m := by exact_mod_cast (not_lt.1 h53)
    have hhi : (m : ℚ) < 2 ^ 56 := by exact_mod_cast hm
    have near : ∀ (j : Nat) (c : Nat), 1 ≤ j → j ≤ 3 → c < 2 ^ 53 → |R.fl (m : ℚ) - m| ≤ |((c * 2 ^ j : Nat) : ℚ) - m| := by
      intro j c hj hj' hc
      apply R.nearest
      have := rep_scaled c hc j (by omega) (by omega) 1 (.inl rfl)
      simpa using this
    -- the two ends of the range are numbers of the format
    have hge : (2 : ℚ) ^ 53 ≤ R.fl m := by
      have h1 := near 1 (2 ^ 52) (by omega) (by omega) (by norm_num)
      have e : (((2 ^ 52 * 2 ^ 1 : Nat)) : ℚ) = 2 ^ 53 := by norm_num
      rw [e, abs_of_nonpos (show (2 : ℚ) ^ 53 - m ≤ 0 by linarith)] at h1
      have := (abs_le.1 h1).1
      linarith
    have hle : R.fl m ≤ 2 ^ 56 := by
      have hrep : Rep double ((2 : ℚ) ^ 56) := ⟨1, 56, by norm_num [double], by show (-1074 : Int) ≤ _; omega,
        by show _ ≤ (971 : Int); omega, by norm_num⟩
      have h1 := R.nearest (m : ℚ) _ hrep
      rw [abs_of_nonneg (show (0 : ℚ) ≤ 2 ^ 56 - m by linarith)] at h1
      have := (abs_le.1 h1).2
      linarith
    refine ⟨?_, ?_⟩
    · obtain ⟨k, a, hk, _, _, hv⟩ := R.rep (m : ℚ)
      refine ⟨k, a, hv, hk, ?_, ?_⟩
      · by_contra hneg
        have ha : a ≤ -1 := by omega
        have h1 : (2 : ℚ) ^ a ≤ 2 ^ (-1 : Int) := zpow_le_zpow_right₀ (by norm_num) ha
        have h2 : (0 : ℚ) < 2 ^ a := zpow_pos (by norm_num) a
        have hk' : (k : ℚ) < 2 ^ 53 := by exact_mod_cast (abs_lt.1 hk).2
        rw [hv] at hge
        have h3 : (k : ℚ) * 2 ^ a < 2 ^ 53 * 2 ^ a := by
          exact mul_lt_mul_of_pos_right hk' h2
        norm_num at h1
        nlinarith
      · by_contra hbig
        have ha : 57 ≤ a := by omega
        have h1 : (2 : ℚ) ^ (57 : Int) ≤ 2 ^ a := zpow_le_zpow_right₀ (by norm_num) ha
        have hkpos : 1 ≤ k := by
          by_contra hk0
          have hk0 : (k : ℚ) ≤ 0 := by exact_mod_cast (show k ≤ 0 by omega)
          have h2 : (0 : ℚ) < 2 ^ a := zpow_pos (by norm_num) a
          rw [hv] at hge
          have : (k : ℚ) * 2 ^ a ≤ 0 := mul_nonpos_of_nonpos_of_nonneg hk0 (le_of_lt h2)
          have : (0 : ℚ) < 2 ^ 53 := by norm_num
          linarith
        have hk1 : (1 : ℚ) ≤ k := by exact_mod_cast hkpos
        rw [hv] at hle
        have h2 : (0 : ℚ) < 2 ^ a := zpow_pos (by norm_num) a
        have h3 : (2 : ℚ) ^ a ≤ k * 2 ^ a := by nlinarith
        norm_num at h1
        norm_num at hle
        linarith
    · -- a multiple of 2, 4 or 8 within half a unit in the last place
      have key : ∀ j : Nat, 1 ≤ j → j ≤ 3 → 2 ^ (52 + j) ≤ m → m < 2 ^ (53 + j) →
          |R.fl (m : ℚ) - m| ≤ 1 / 2 ^ 53 * m := by
        intro j hj hj' hmlo hmhi
        have hpos : 0 < 2 ^ j := by positivity
        obtain ⟨q, r, hqr, hr⟩ : ∃ q r : Nat, m = q * 2 ^ j + r ∧ r < 2 ^ j :=
          ⟨m / 2 ^ j, m % 2 ^ j, by rw [Nat.mul_comm]; exact (Nat.div_add_mod _ _).symm, Nat.mod_lt _ hpos⟩
        have hq : q < 2 ^ 53 := by
          by_contra hc
          have : 2 ^ 53 * 2 ^ j ≤ q * 2 ^ j := Nat.mul_le_mul_right _ (not_lt.1 hc)
          rw [← pow_add] at this
          omega
        have hmQ : (m : ℚ) = q * 2 ^ j + r := by rw [hqr]; push_cast; ring
        have hhalf : |R.fl (m : ℚ) - m| ≤ 2 ^ j / 2 := by
          by_cases hrj : 2 * r ≤ 2 ^ j
          · have h1 := near j q hj hj' hq
            have e : (((q * 2 ^ j : Nat) : ℚ) - m) = -(r : ℚ) := by rw [hmQ]; push_cast; ring
            rw [e, abs_neg, abs_of_nonneg (Nat.cast_nonneg r : (0 : ℚ) ≤ (r : ℚ))] at h1
            have h2 : (2 : ℚ) * r ≤ 2 ^ j := by exact_mod_cast hrj
            linarith
          · have h2 : (2 : ℚ) ^ j < 2 * r := by exact_mod_cast (not_le.1 hrj)
            have hbound : ∀ y : ℚ, y = ((q + 1 : Nat) : ℚ) * 2 ^ j → |R.fl (m : ℚ) - m| ≤ |y - m| := by
              intro y hy
              apply R.nearest
              rw [hy]
              by_cases hq1 : q + 1 < 2 ^ 53
              · have := rep_scaled (q + 1) hq1 j (by omega) (by omega) 1 (.inl rfl)
                simpa using this
              · have : q + 1 = 2 ^ 53 := by omega
                rw [this]
                refine ⟨1, 53 + j, by norm_num [double], by show (-1074 : Int) ≤ _; omega,
                  by show _ ≤ (971 : Int); omega, ?_⟩
                rw [zpow_add₀ (by norm_num), zpow_natCast]
                push_cast
                norm_num
            have h1 := hbound _ rfl
            have e : (((q + 1 : Nat) : ℚ) * 2 ^ j - m) = 2 ^ j - r := by rw [hmQ]; push_cast; ring
            have hr' : (r : ℚ) < 2 ^ j := by exact_mod_cast hr
            rw [e, abs_of_nonneg (show (0 : ℚ) ≤ 2 ^ j - r by linarith)] at h1
            linarith
        have hml : (2 : ℚ) ^ (52 + j) ≤ m := by exact_mod_cast hmlo
        have e : (2 : ℚ) ^ (52 + j) = 2 ^ 53 * (2 ^ j / 2) := by rw [pow_add]; ring
        have : (2 : ℚ) ^ j / 2 = 1 / 2 ^ 53 * 2 ^ (52 + j) := by rw [e]; ring
        calc |R.fl (m : ℚ) - m| ≤ 2 ^ j / 2 := hhalf
          _ = 1 / 2 ^ 53 * 2 ^ (52 + j) := this
          _ ≤ 1 / 2 ^ 53 * m := by
            apply mul_le_mul_of_nonneg_left hml; positivity
      by_cases h54 : m < 2 ^ 54
      · exact key 1 (by omega) (by omega) (not_lt.1 h53) h54
      · by_cases h55 : m < 2 ^ 55
        · exact key 2 (by omega) (by omega) (not_lt.1 h54) h55
        · exact key 3 (by omega) (by omega) (not_lt.1 h55) hm

/-- **C16 (long).** Every 64-bit IBM floating point number is converted to its value within half a unit of
the 53rd bit; exactly, if its fraction is a number of at most 53 bits followed by zeros. -/
theorem C16_long (R : Rounding double) (w : Nat) (hw : w < 2 ^ 64) :
    |ibm64 R w - ibmValue 64 w| ≤ 1 / 2 ^ 53 * |ibmValue 64 w| ∧
    ((∃ k j : Nat, w % 2 ^ 56 = k * 2 ^ j ∧ k < 2 ^ 53) → ibm64 R w = ibmValue 64 w) := by
  obtain ⟨hrep, herr⟩ := fraction56 R (w % 2 ^ 56) (Nat.mod_lt _ (by norm_num))
  have h := ibmToNp_eq R 63 56 w (by omega) hw hrep
  rw [ibm64, show (0x00ffffffffffffff : Nat) = 2 ^ 56 - 1 from rfl, h]
  have hv : ibmValue 64 w = (-1) ^ (w / 2 ^ 63) * (((w % 2 ^ 56 : Nat) : ℚ) / 2 ^ 56) *
      16 ^ (((w / 2 ^ 56 % 128 : Nat) : Int) - 64) := rfl
  rw [hv]
  generalize hm : w % 2 ^ 56 = m at *
  generalize hP : (16 : ℚ) ^ (((w / 2 ^ 56 % 128 : Nat) : Int) - 64) = P
  have hP0 : 0 < P := by rw [← hP]; exact zpow_pos (by norm_num) _
  generalize hS : (-1 : ℚ) ^ (w / 2 ^ 63) = S
  have hS1 : |S| = 1 := by rw [← hS, abs_pow]; simp
  constructor
  · have e : S * (R.fl (m : ℚ) / 2 ^ 56) * P - S * ((m : ℚ) / 2 ^ 56) * P = S * ((R.fl m - m) / 2 ^ 56 * P) := by ring
    rw [e, abs_mul, hS1, one_mul, abs_mul, abs_div, abs_mul, abs_mul, hS1, one_mul, abs_div, abs_of_pos hP0,
      abs_of_pos (show (0 : ℚ) < 2 ^ 56 by norm_num), abs_of_nonneg (Nat.cast_nonneg m : (0 : ℚ) ≤ (m : ℚ))]
    have : |R.fl (m : ℚ) - m| / 2 ^ 56 ≤ 1 / 2 ^ 53 * ((m : ℚ) / 2 ^ 56) := by
      rw [← mul_div_assoc]
      exact div_le_div_of_nonneg_right herr (by norm_num)
    calc |R.fl (m : ℚ) - m| / 2 ^ 56 * P ≤ 1 / 2 ^ 53 * ((m : ℚ) / 2 ^ 56) * P := mul_le_mul_of_nonneg_right this (le_of_lt hP0)
      _ = 1 / 2 ^ 53 * ((m : ℚ) / 2 ^ 56 * P) := by ring
  · rintro ⟨k, j, hkj, hk⟩
    have hfl : R.fl (m : ℚ) = m := by
      by_cases hk0 : k = 0
      · subst hk0
        rw [hkj, Nat.zero_mul]
        apply R.exact
        have := rep_scaled 0 (by norm_num) 0 (by omega) (by omega) 1 (.inl rfl)
        simpa using this
      apply R.exact
      have hj : j < 56 := by
        have hlt : m < 2 ^ 56 := by rw [← hm]; exact Nat.mod_lt _ (by norm_num)
        have h1 : 2 ^ j ≤ k * 2 ^ j := Nat.le_mul_of_pos_left _ (Nat.pos_of_ne_zero hk0)
        exact (Nat.pow_lt_pow_iff_right (by norm_num : 1 < 2)).1 (by omega)
      have := rep_scaled k hk j (by omega) (by omega) 1 (.inl rfl)
      rw [hkj]
      simpa using this
    rw [hfl]

/-! ### columns -/

theorem maximum_ge (a : ℚ) (as : List ℚ) : ∀ x ∈ a :: as, x ≤ maximum a as := by
  induction as generalizing a with
  | nil => intro x hx; simp only [List.mem_singleton] at hx; rw [hx]; exact le_refl _
  | cons b bs ih =>
    intro x hx
    show x ≤ bs.foldl max (max a b)
    have := ih (max a b)
    simp only [List.mem_cons] at hx this
    have h0 := this (max a b) (.inl rfl)
    rcases hx with rfl | rfl | hx
    · exact le_trans (le_max_left _ _) h0
    · exact le_trans (le_max_right _ _) h0
    · exact this x (.inr hx)

theorem maximum_mem (a : ℚ) (as : List ℚ) : maximum a as ∈ a :: as := by
  induction as generalizing a with
  | nil => simp [maximum]
  | cons b bs ih =>
    have := ih (max a b)
    show bs.foldl max (max a b) ∈ _
    simp only [List.mem_cons, maximum] at this ⊢
    rcases this with h | h
    · rcases max_choice a b with h' | h' <;> rw [h'] at h ⊢ <;> simp [h]
    · exact .inr (.inr h)

/-- a short IBM number as a fraction of 24 bits and a power of two -/
theorem ibm_form (w : Nat) (hw : w < 2 ^ 32) : ∃ (S : Int) (m : Nat) (e : Int),
    (S = 1 ∨ S = -1) ∧ m < 2 ^ 24 ∧ ibmValue 32 w = S * m * 2 ^ e := by
  obtain ⟨h1, h2⟩ := sign_eq w 31 hw
  refine ⟨_, w % 2 ^ 24, 4 * (((w / 2 ^ 24 % 128 : Nat) : Int) - 64) - 24, h1, Nat.mod_lt _ (by norm_num), ?_⟩
  rw [h2, ibmValue, sixteen_pow, zpow_sub₀ (by norm_num)]
  norm_num
  ring

/-- short IBM numbers in the normal range of float32 are numbers of float32 -/
theorem ibm_rep_single (w : Nat) (hw : w < 2 ^ 32) (hhi : |ibmValue 32 w| ≤ largest single)
    (hlo : ibmValue 32 w = 0 ∨ 2 ^ (-126 : Int) ≤ |ibmValue 32 w|) : Rep single (ibmValue 32 w) := by
  obtain ⟨S, m, e, hS, hm, hv⟩ := ibm_form w hw
  rcases hlo with h0 | hlo
  · rw [h0]; exact ⟨0, 0, by norm_num [single], by show (-149 : Int) ≤ _; omega, by show _ ≤ (104 : Int); omega, by simp⟩
  have he0 : (0 : ℚ) < 2 ^ e := zpow_pos (by norm_num) e
  have habs : |ibmValue 32 w| = m * 2 ^ e := by
    rw [hv, abs_mul, abs_mul, abs_of_pos he0, abs_of_nonneg (Nat.cast_nonneg m : (0 : ℚ) ≤ (m : ℚ))]
    rcases hS with rfl | rfl <;> simp
  rw [habs] at hhi hlo
  have hmQ : (m : ℚ) < 2 ^ (24 : Int) := by exact_mod_cast hm
  have he1 : -149 ≤ e := by
    by_contra hc
    have h1 : (2 : ℚ) ^ e ≤ 2 ^ (-150 : Int) := zpow_le_zpow_right₀ (by norm_num) (by omega)
    have h2 : (m : ℚ) * 2 ^ e < 2 ^ (24 : Int) * 2 ^ e := mul_lt_mul_of_pos_right hmQ he0
    have h3 : (2 : ℚ) ^ (24 : Int) * 2 ^ e ≤ 2 ^ (24 : Int) * 2 ^ (-150 : Int) :=
      mul_le_mul_of_nonneg_left h1 (le_of_lt (zpow_pos (by norm_num) _))
    have h4 : (2 : ℚ) ^ (24 : Int) * 2 ^ (-150 : Int) = 2 ^ (-126 : Int) := by norm_num
    linarith
  by_cases he2 : e ≤ 104
  · refine ⟨S * m, e, ?_, he1, he2, by rw [hv]; push_cast; ring⟩
    have hm' : (m : Int) < 2 ^ 24 := by exact_mod_cast hm
    show |S * (m : Int)| < 2 ^ 24
    rcases hS with rfl | rfl
    · rw [one_mul, abs_of_nonneg (by positivity)]; exact hm'
    · rw [neg_one_mul, abs_neg, abs_of_nonneg (by positivity)]; exact hm'
  · obtain ⟨d, hd⟩ : ∃ d : Nat, e = 104 + d := ⟨(e - 104).toNat, by omega⟩
    have hk : (m * 2 ^ d : Nat) < 2 ^ 24 := by
      have h4 : (0 : ℚ) < 2 ^ (104 : Int) := zpow_pos (by norm_num) _
      have h3 : ((m * 2 ^ d : Nat) : ℚ) * 2 ^ (104 : Int) ≤ (2 ^ 24 - 1) * 2 ^ (104 : Int) := by
        have : ((m * 2 ^ d : Nat) : ℚ) * 2 ^ (104 : Int) = m * 2 ^ e := by
          rw [hd, zpow_add₀ (by norm_num), zpow_natCast]; push_cast; ring
        rw [this]; exact hhi
      have h5 := le_of_mul_le_mul_right h3 h4
      have h6 : ((m * 2 ^ d : Nat) : ℚ) < 2 ^ 24 := by linarith
      exact_mod_cast h6
    have hk' : ((m * 2 ^ d : Nat) : Int) < 2 ^ 24 := by exact_mod_cast hk
    refine ⟨S * ((m * 2 ^ d : Nat) : Int), 104, ?_, by show (-149 : Int) ≤ _; omega, le_refl _, ?_⟩
    · show |S * ((m * 2 ^ d : Nat) : Int)| < 2 ^ 24
      rcases hS with rfl | rfl
      · rw [one_mul, abs_of_nonneg (Int.natCast_nonneg _)]; exact hk'
      · rw [neg_one_mul, abs_neg, abs_of_nonneg (Int.natCast_nonneg _)]; exact hk'
    · rw [hv, hd, zpow_add₀ (by norm_num), zpow_natCast]; push_cast; ring

theorem map_ibm32 (R : Rounding double) (ws : List Nat) (hws : ∀ w ∈ ws, w < 2 ^ 32) :
    ws.map (ibm32 R) = ws.map (ibmValue 32) :=
  List.map_congr_left fun w hw => C16_short R w (hws w hw)

/-- **C16 (columns of short reals).** A column of 4-byte IBM reals that are zero or of magnitude 2^-126 at
least is read as exactly the values it holds, whether pdr stores it as float32 or as float64. -/
theorem C16_short_column (R : Rounding double) (R' : Rounding single) (ws : List Nat) (hne : ws ≠ [])
    (hws : ∀ w ∈ ws, w < 2 ^ 32) (hlo : ∀ w ∈ ws, ibmValue 32 w = 0 ∨ 2 ^ (-126 : Int) ≤ |ibmValue 32 w|) :
    convertShort R R' ws = .ok (ws.map (ibmValue 32)) := by
  unfold convertShort
  simp only
  rw [map_ibm32 R ws hws]
  cases h : (ws.map (ibmValue 32)).map abs with
  | nil => cases ws with
    | nil => exact absurd rfl hne
    | cons => simp at h
  | cons a as =>
    simp only
    split
    · rfl
    · rename_i hbs
      simp only [wide, Bool.or_eq_true, not_or, decide_eq_true_eq, not_lt] at hbs
      congr 1
      conv_rhs => rw [← List.map_id (ws.map (ibmValue 32))]
      apply List.map_congr_left
      intro x hx
      obtain ⟨w, hw, rfl⟩ := List.mem_map.1 hx
      apply R'.exact
      apply ibm_rep_single w (hws w hw) _ (hlo w hw)
      refine le_trans (maximum_ge a as _ ?_) hbs.1
      rw [← h, List.mem_map]
      exact ⟨_, hx, rfl⟩

/-- **C16 (columns of long reals).** -/
theorem C16_long_column (R : Rounding double) (ws : List Nat) (hws : ∀ w ∈ ws, w < 2 ^ 64) (i : Nat) (w : Nat)
    (hi : ws[i]? = some w) :
    ∃ x, (convertLong R ws)[i]? = some x ∧ |x - ibmValue 64 w| ≤ 1 / 2 ^ 53 * |ibmValue 64 w| ∧
      ((∃ k j : Nat, w % 2 ^ 56 = k * 2 ^ j ∧ k < 2 ^ 53) → x = ibmValue 64 w) := by
  refine ⟨ibm64 R w, by rw [convertLong, List.getElem?_map, hi]; rfl, ?_⟩
  exact C16_long R w (hws w (List.mem_of_getElem? hi))

theorem fl_le {F : Format} (R : Rounding F) (x y : ℚ) (hy : Rep F y) (hxy : x ≤ y) : R.fl x ≤ y := by
  have h := R.nearest x y hy
  rw [abs_of_nonneg (show (0 : ℚ) ≤ y - x by linarith)] at h
  have := (abs_le.1 h).2
  linarith

/-- columns that are stored as float32 -/
theorem not_wide (R : Rounding double) (a : ℚ) (as : List ℚ)
    (hall : ∀ x ∈ a :: as, x ≤ largest single ∧ (x = 0 ∨ 2 ^ (-146 : Int) ≤ x)) : ¬ wide R a as = true := by
  simp only [wide, Bool.or_eq_true, not_or, decide_eq_true_eq, not_lt, List.any_eq_true, Bool.and_eq_true, not_exists, not_and]
  refine ⟨(hall _ (maximum_mem a as)).1, ?_⟩
  intro x hx hx0
  rcases (hall x hx).2 with h0 | h0
  · rw [h0] at hx0; exact absurd hx0 (lt_irrefl _)
  · refine le_trans ?_ h0
    apply fl_le
    · exact ⟨1, -146, by norm_num [double], by show (-1074 : Int) ≤ _; omega, by show _ ≤ (971 : Int); omega, by norm_num⟩
    · norm_num

/-- columns that are stored as float64 -/
theorem is_wide (R : Rounding double) (a : ℚ) (as : List ℚ) (x : ℚ) (hx : x ∈ a :: as) (h : largest single < x) : wide R a as = true := by
  simp only [wide, Bool.or_eq_true, decide_eq_true_eq]
  exact Or.inl (lt_of_lt_of_le h (maximum_ge a as x hx))

/-- **C54 (limit).** A column of 4-byte IBM reals with no value beyond the range of float32 and none between zero
and 2^-146 is stored as float32, so every value becomes a multiple of 2^-149: a value below 2^-126 that is
not one is read wrong, although float64 could hold it exactly. -/
theorem C54_subnormal (R : Rounding double) (R' : Rounding single) (ws : List Nat) (hne : ws ≠ [])
    (hws : ∀ w ∈ ws, w < 2 ^ 32) (hhi : ∀ w ∈ ws, |ibmValue 32 w| ≤ largest single)
    (hlo : ∀ w ∈ ws, ibmValue 32 w = 0 ∨ 2 ^ (-146 : Int) ≤ |ibmValue 32 w|) :
    ∃ xs : List ℚ, convertShort R R' ws = .ok xs ∧ xs.length = ws.length ∧
      ∀ (i w : Nat) (x : ℚ), ws[i]? = some w → xs[i]? = some x →
        (∃ k : Int, x = k * 2 ^ (-149 : Int)) ∧
        ((¬ ∃ k : Int, ibmValue 32 w = k * 2 ^ (-149 : Int)) → x ≠ ibmValue 32 w) := by
  refine ⟨(ws.map (ibmValue 32)).map R'.fl, ?_, by simp, ?_⟩
  · unfold convertShort
    simp only
    rw [map_ibm32 R ws hws]
    cases h : (ws.map (ibmValue 32)).map abs with
    | nil => cases ws with
      | nil => exact absurd rfl hne
      | cons => simp at h
    | cons a as =>
      simp only
      have hall : ∀ x ∈ a :: as, x ≤ largest single ∧ (x = 0 ∨ 2 ^ (-146 : Int) ≤ x) := by
        intro x hx
        rw [← h] at hx
        simp only [List.mem_map] at hx
        obtain ⟨_, ⟨w, hw, rfl⟩, rfl⟩ := hx
        refine ⟨hhi w hw, ?_⟩
        rcases hlo w hw with h0 | h0
        · exact .inl (by rw [h0, abs_zero])
        · exact .inr h0
      rw [if_neg (not_wide R a as hall)]
  · intro i w x hw hx
    rw [List.getElem?_map, List.getElem?_map, hw] at hx
    simp only [Option.map_some, Option.some.injEq] at hx
    have hmem := List.mem_of_getElem? hw
    have hk : ∃ k : Int, x = k * 2 ^ (-149 : Int) := by
      obtain ⟨k, e, _, he, _, hv⟩ := R'.rep (ibmValue 32 w)
      change (-149 : Int) ≤ e at he
      obtain ⟨d, hd⟩ : ∃ d : Nat, e = -149 + d := ⟨(e + 149).toNat, by omega⟩
      refine ⟨k * 2 ^ d, ?_⟩
      rw [← hx, hv, hd, zpow_add₀ (by norm_num), zpow_natCast]
      push_cast
      ring
    refine ⟨hk, ?_⟩
    rintro hno rfl
    exact hno hk

/-- **C54 (limit).** A table without rows that has a column of 4-byte IBM reals cannot be read. -/
theorem C54_no_rows (R : Rounding double) (R' : Rounding single) : convertShort R R' [] = .error .valueError := rfl

/-! ### examples -/

/-- -118.625 -/
example : ibmValue 32 0xC276A000 = -118.625 := by norm_num [ibmValue]

example (R : Rounding double) (R' : Rounding single) :
    convertShort R R' [0xC276A000, 0, 0x7FFFFFFF] = .ok [-118.625, 0, (2 ^ 24 - 1) * 2 ^ 228] := by
  rw [C16_short_column R R' _ (by simp) (by simp) (by
    intro w hw
    simp only [List.mem_cons, List.not_mem_nil, or_false] at hw
    rcases hw with rfl | rfl | rfl <;> norm_num [ibmValue])]
  norm_num [ibmValue]

/-- the number 2^-131 + 2^-152 is read as something else -/
example (R : Rounding double) (R' : Rounding single) :
    ∃ x, convertShort R R' [0x20200001] = .ok [x] ∧ x ≠ ibmValue 32 0x20200001 := by
  have hv : ibmValue 32 0x20200001 = (2 ^ 21 + 1) * 2 ^ (-152 : Int) := by norm_num [ibmValue]
  have hpos : (0 : ℚ) < (2 ^ 21 + 1) * 2 ^ (-152 : Int) := by norm_num
  obtain ⟨xs, h1, h2, h3⟩ := C54_subnormal R R' [0x20200001] (by simp) (by simp) (by
      intro w hw
      simp only [List.mem_singleton] at hw
      rw [hw, hv, abs_of_pos hpos]
      norm_num [largest, single]) (by
      intro w hw
      simp only [List.mem_singleton] at hw
      rw [hw, hv, abs_of_pos hpos]
      right
      norm_num)
  match xs, h2 with
  | [x], _ =>
    refine ⟨x, h1, (h3 0 _ x rfl rfl).2 ?_⟩
    rintro ⟨k, hk⟩
    rw [hv] at hk
    have e : (2 : ℚ) ^ (-149 : Int) = 8 * 2 ^ (-152 : Int) := by norm_num
    rw [e, ← mul_assoc] at hk
    have hk' := mul_right_cancel₀ (zpow_ne_zero _ (by norm_num)) hk
    have hk2 : ((2 ^ 21 + 1 : Int) : ℚ) = ((k * 8 : Int) : ℚ) := by push_cast; rw [← hk']; norm_num
    have hk3 : (2 ^ 21 + 1 : Int) = k * 8 := by exact_mod_cast hk2
    omega

/-- a long real -/
example (R : Rounding double) : ibm64 R 0xC276A00000000000 = -118.625 := by
  rw [(C16_long R _ (by norm_num)).2 ⟨0x76A, 44, by norm_num, by norm_num⟩]
  norm_num [ibmValue]

end Verif.Ibm
