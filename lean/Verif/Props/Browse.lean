import Verif.Spec.Browse
import Verif.Props.Scaling
import Mathlib.Algebra.Order.Archimedean.Basic
import Mathlib.Algebra.Order.Floor.Ring

/-!
C25 and the limit C58: browse images.
-/

namespace Verif.Browse
open Verif.Py Verif.Float Verif.NumPy Spec

/-! ### rounding -/

theorem roundEven_mono (x y : ℚ) (h : x ≤ y) : roundEven x ≤ roundEven y := by
  have hf : ⌊x⌋ ≤ ⌊y⌋ := Int.floor_le_floor h
  have hx1 := Int.floor_le x
  have hx2 := Int.lt_floor_add_one x
  have hy1 := Int.floor_le y
  rcases lt_or_eq_of_le hf with hlt | heq
  · have h1 : roundEven x ≤ ⌊x⌋ + 1 := by unfold roundEven; split_ifs <;> omega
    have h2 : ⌊y⌋ ≤ roundEven y := by unfold roundEven; split_ifs <;> omega
    omega
  · unfold roundEven
    rw [← heq]
    split_ifs <;> first | omega | (exfalso; linarith)

theorem roundEven_int (n : Int) : roundEven (n : ℚ) = n := by
  unfold roundEven
  rw [Int.floor_intCast]
  simp

theorem roundEven_near (x : ℚ) (n : Int) (h1 : (n : ℚ) - 1 / 2 < x) (h2 : x < n + 1 / 2) : roundEven x = n := by
  have hx1 := Int.floor_le x
  have hx2 := Int.lt_floor_add_one x
  have a : ⌊x⌋ < n + 1 := by
    have : ((⌊x⌋ : Int) : ℚ) < ((n + 1 : Int) : ℚ) := by push_cast; linarith
    exact_mod_cast this
  have b : n - 2 < ⌊x⌋ := by
    have : ((n - 2 : Int) : ℚ) < ((⌊x⌋ : Int) : ℚ) := by push_cast; linarith
    exact_mod_cast this
  have c : ⌊x⌋ = n ∨ ⌊x⌋ = n - 1 := by omega
  unfold roundEven
  rcases c with c | c <;> rw [c] <;> push_cast
  · rw [if_pos (by linarith)]
  · rw [if_neg (by linarith), if_pos (by linarith)]
    omega

theorem fl_mono {F : Format} (R : Rounding F) (x y : ℚ) (h : x ≤ y) : R.fl x ≤ R.fl y := by
  by_contra hlt
  push Not at hlt
  have hne : x ≠ y := by rintro rfl; exact lt_irrefl _ hlt
  have hxy : x < y := lt_of_le_of_ne h hne
  have h1 := R.nearest x (R.fl y) (R.rep y)
  have h2 := R.nearest y (R.fl x) (R.rep x)
  rcases abs_cases (R.fl x - x) with ⟨e1, _⟩ | ⟨e1, _⟩ <;> rcases abs_cases (R.fl y - x) with ⟨e2, _⟩ | ⟨e2, _⟩ <;>
    rcases abs_cases (R.fl y - y) with ⟨e3, _⟩ | ⟨e3, _⟩ <;> rcases abs_cases (R.fl x - y) with ⟨e4, _⟩ | ⟨e4, _⟩ <;>
    rw [e1, e2] at h1 <;> rw [e3, e4] at h2 <;> linarith

/-- numbers in the range of a format have a number of the format near below -/
theorem near_below (F : Format) (x : ℚ) (h1 : (2 : ℚ) ^ (F.emin + F.p - 1) ≤ x)
    (h2 : x < 2 ^ (F.emax + F.p)) : ∃ y, Rep F y ∧ y ≤ x ∧ x - y ≤ x * 2 ^ (1 - (F.p : Int)) := by
  have hx : 0 < x := lt_of_lt_of_le (zpow_pos (by norm_num) _) h1
  obtain ⟨n, hn1, hn2⟩ := exists_mem_Ico_zpow hx (by norm_num : (1 : ℚ) < 2)
  have he1 : F.emin + F.p - 1 < n + 1 := by
    by_contra hc
    push Not at hc
    have : (2 : ℚ) ^ (n + 1) ≤ 2 ^ (F.emin + F.p - 1) := zpow_le_zpow_right₀ (by norm_num) hc
    linarith
  have he2 : n < F.emax + F.p := by
    by_contra hc
    push Not at hc
    have : (2 : ℚ) ^ (F.emax + F.p) ≤ 2 ^ n := zpow_le_zpow_right₀ (by norm_num) hc
    linarith
  let e : Int := n - (F.p - 1)
  have hpow : (0 : ℚ) < 2 ^ e := zpow_pos (by norm_num) _
  have hsplit : (2 : ℚ) ^ (n + 1) = 2 ^ F.p * 2 ^ e := by
    rw [← zpow_natCast, ← zpow_add₀ (by norm_num)]
    congr 1
    simp only [e]; ring
  have hsplit' : (2 : ℚ) ^ e = 2 ^ n * 2 ^ (1 - (F.p : Int)) := by
    rw [← zpow_add₀ (by norm_num)]
    congr 1
    simp only [e]; ring
  have hq0 : 0 ≤ x / 2 ^ e := le_of_lt (div_pos hx hpow)
  have hk0 : 0 ≤ ⌊x / 2 ^ e⌋ := Int.floor_nonneg.2 hq0
  have hk1 : ((⌊x / 2 ^ e⌋ : Int) : ℚ) ≤ x / 2 ^ e := Int.floor_le _
  have hk2 : x / 2 ^ e < ⌊x / 2 ^ e⌋ + 1 := Int.lt_floor_add_one _
  refine ⟨⌊x / 2 ^ e⌋ * 2 ^ e, ⟨⌊x / 2 ^ e⌋, e, ?_, ?_, ?_, rfl⟩, ?_, ?_⟩
  · rw [abs_of_nonneg hk0]
    have : x / 2 ^ e < 2 ^ F.p := by
      rw [div_lt_iff₀ hpow, ← hsplit]; exact hn2
    have : ((⌊x / 2 ^ e⌋ : Int) : ℚ) < ((2 ^ F.p : Int) : ℚ) := by push_cast; linarith
    exact_mod_cast this
  · simp only [e]; omega
  · simp only [e]; omega
  · rwa [← le_div_iff₀ hpow]
  · have : x < (⌊x / 2 ^ e⌋ + 1) * 2 ^ e := by rwa [← div_lt_iff₀ hpow]
    have h3 : x - ⌊x / 2 ^ e⌋ * 2 ^ e < 2 ^ e := by linarith
    have h4 : (2 : ℚ) ^ e ≤ x * 2 ^ (1 - (F.p : Int)) := by
      rw [hsplit']
      exact mul_le_mul_of_nonneg_right hn1 (le_of_lt (zpow_pos (by norm_num) _))
    linarith

/-- the relative error of rounding -/
theorem fl_error {F : Format} (R : Rounding F) (x : ℚ) (h1 : (2 : ℚ) ^ (F.emin + F.p - 1) ≤ x)
    (h2 : x < 2 ^ (F.emax + F.p)) : |R.fl x - x| ≤ x * 2 ^ (1 - (F.p : Int)) := by
  obtain ⟨y, hy, hyx, herr⟩ := near_below F x h1 h2
  refine le_trans (R.nearest x y hy) ?_
  rw [abs_sub_comm, abs_of_nonneg (by linarith)]
  exact herr

/-- what the proofs need of float32 and float64 -/
structure Usual (F : Format) : Prop where
  p : 12 ≤ F.p
  low : F.emin + F.p - 1 ≤ 8 - F.emax - F.p
  neg : F.emin ≤ -20
  pos : 0 ≤ F.emax

theorem usual_single : Usual single := ⟨by decide, by decide, by decide, by decide⟩
theorem usual_double : Usual double := ⟨by decide, by decide, by decide, by decide⟩

theorem two_zpow_pos (e : Int) : (0 : ℚ) < 2 ^ e := zpow_pos (by norm_num) _

theorem rep_pow {F : Format} (hF : Usual F) (e : Int) (h1 : F.emin ≤ e) (h2 : e < F.emax + F.p) : Rep F (2 ^ e) := by
  have hp := hF.p
  have hee : F.emin ≤ F.emax := by have := hF.neg; have := hF.pos; omega
  by_cases h : e ≤ F.emax
  · refine ⟨1, e, ?_, h1, h, by simp⟩
    rw [abs_one]
    exact one_lt_pow₀ (by norm_num) (by omega)
  · obtain ⟨k, hk⟩ : ∃ k : Nat, e = F.emax + k := ⟨(e - F.emax).toNat, by omega⟩
    have hkp : k < F.p := by omega
    refine ⟨2 ^ k, F.emax, ?_, hee, le_refl _, ?_⟩
    · rw [abs_of_nonneg (by positivity)]
      exact pow_lt_pow_right₀ (by norm_num) hkp
    · rw [hk, zpow_add₀ (by norm_num)]
      push_cast
      rw [zpow_natCast, mul_comm]

/-- quarters of small numbers -/
theorem rep_quarter {F : Format} (hF : Usual F) (k : Int) (hk : |k| < 4096) : Rep F (k / 4) := by
  refine ⟨k, -2, ?_, by have := hF.neg; omega, by have := hF.pos; omega, ?_⟩
  · calc |k| < 2 ^ 12 := hk
      _ ≤ 2 ^ F.p := pow_le_pow_right₀ (by norm_num) hF.p
  · norm_num; ring

theorem rep_zero (F : Format) (h : F.emin ≤ F.emax) : Rep F 0 := ⟨0, F.emin, by positivity, le_refl _, h, by simp⟩

theorem eps_small {F : Format} (hF : Usual F) : (2 : ℚ) ^ (1 - (F.p : Int)) ≤ 1 / 2048 := by
  have : (2 : ℚ) ^ (1 - (F.p : Int)) ≤ 2 ^ (-11 : Int) := zpow_le_zpow_right₀ (by norm_num) (by have := hF.p; omega)
  refine le_trans this ?_
  norm_num

/-- the factor: 255 divided by the range -/
theorem factor_bounds {F : Format} (R : Rounding F) (hF : Usual F) (d : ℚ) (h1 : (2 : ℚ) ^ (9 - F.emax - F.p) ≤ d)
    (h2 : d ≤ 2 ^ (F.emax + F.p - 1)) : 255 - 1 / 8 ≤ d * R.fl (255 / d) ∧ d * R.fl (255 / d) ≤ 255 + 1 / 8 := by
  have hd : 0 < d := lt_of_lt_of_le (two_zpow_pos _) h1
  have hlo : (2 : ℚ) ^ (F.emin + F.p - 1) ≤ 255 / d := by
    rw [le_div_iff₀ hd]
    calc (2 : ℚ) ^ (F.emin + F.p - 1) * d ≤ 2 ^ (8 - F.emax - F.p) * 2 ^ (F.emax + F.p - 1) :=
          mul_le_mul (zpow_le_zpow_right₀ (by norm_num) hF.low) h2 (le_of_lt hd) (le_of_lt (two_zpow_pos _))
      _ = 2 ^ (7 : Int) := by rw [← zpow_add₀ (by norm_num)]; congr 1; ring
      _ ≤ 255 := by norm_num
  have hhi : 255 / d < 2 ^ (F.emax + F.p) := by
    rw [div_lt_iff₀ hd]
    calc (255 : ℚ) < 2 ^ (9 : Int) := by norm_num
      _ = 2 ^ (F.emax + F.p) * 2 ^ (9 - F.emax - F.p) := by rw [← zpow_add₀ (by norm_num)]; congr 1; ring
      _ ≤ 2 ^ (F.emax + F.p) * d := mul_le_mul_of_nonneg_left h1 (le_of_lt (two_zpow_pos _))
  have herr := fl_error R (255 / d) hlo hhi
  have heps := eps_small hF
  have h255 : d * (255 / d) = 255 := by field_simp
  have hq : 0 < 255 / d := by positivity
  rw [abs_le] at herr
  have hb : 255 / d * 2 ^ (1 - (F.p : Int)) ≤ 255 / d * (1 / 2048) := mul_le_mul_of_nonneg_left heps (le_of_lt hq)
  have a1 : R.fl (255 / d) ≤ 255 / d * (1 + 1 / 2048) := by linarith [herr.2]
  have a2 : 255 / d * (1 - 1 / 2048) ≤ R.fl (255 / d) := by linarith [herr.1]
  constructor
  · have := mul_le_mul_of_nonneg_left a2 (le_of_lt hd)
    rw [← mul_assoc, h255] at this
    linarith
  · have := mul_le_mul_of_nonneg_left a1 (le_of_lt hd)
    rw [← mul_assoc, h255] at this
    linarith

/-- a map that is monotone and stays in range gives a stretch -/
theorem stretch_of {α : Type} [Preorder α] (mn mx : α) (g : α → ℚ) (hmono : ∀ x y, x ≤ y → g x ≤ g y)
    (h0 : ∀ x, 0 ≤ g x) (h1 : ∀ x, g x ≤ 255 + 1 / 4) (hb : ∀ x, x ≤ mn → g x = 0) (hw : ∀ x, mx ≤ x → 255 - 1 / 4 ≤ g x) :
    Stretch mn mx (fun x => toByte (g x)) := by
  have r0 : ∀ x, 0 ≤ roundEven (g x) := by
    intro x
    have := roundEven_mono _ _ (h0 x)
    have e := roundEven_int 0
    norm_num at e
    rwa [e] at this
  have r1 : ∀ x, roundEven (g x) ≤ 255 := by
    intro x
    have := roundEven_mono _ _ (h1 x)
    rwa [roundEven_near (255 + 1 / 4) 255 (by norm_num) (by norm_num)] at this
  have hw' : ∀ x, toByte (g x) = roundEven (g x) := by
    intro x
    exact wrap_id uint8 (by decide) _ (r0 x) (r1 x)
  refine ⟨?_, ?_, ?_, ?_, ?_⟩
  · intro x; show 0 ≤ toByte (g x); rw [hw']; exact r0 x
  · intro x; show toByte (g x) ≤ 255; rw [hw']; exact r1 x
  · intro x y h
    show toByte (g x) ≤ toByte (g y)
    rw [hw', hw']
    exact roundEven_mono _ _ (hmono x y h)
  · intro x h
    show toByte (g x) = 0
    rw [hw', hb x h]
    exact roundEven_int 0
  · intro x h
    show toByte (g x) = 255
    rw [hw']
    exact roundEven_near _ 255 (by push_cast; linarith [hw x h]) (by push_cast; linarith [h1 x])

theorem clip_mono (mn mx : ℚ) {x y : ℚ} (h : x ≤ y) : clip mn mx x ≤ clip mn mx y :=
  min_le_min (max_le_max h (le_refl _)) (le_refl _)

theorem clip_ge (mn mx x : ℚ) (h : mn ≤ mx) : mn ≤ clip mn mx x := le_min (le_max_right _ _) h

theorem clip_le (mn mx x : ℚ) : clip mn mx x ≤ mx := min_le_right _ _

theorem clip_low (mn mx x : ℚ) (h : mn ≤ mx) (hx : x ≤ mn) : clip mn mx x = mn := by
  unfold clip
  rw [max_eq_right hx, min_eq_left h]

theorem clip_high (mn mx x : ℚ) (h : mn ≤ mx) (hx : mx ≤ x) : clip mn mx x = mx := by
  unfold clip
  rw [max_eq_left (le_trans h hx), min_eq_right hx]

/-- the range after rounding -/
theorem range_bounds {F : Format} (R : Rounding F) (hF : Usual F) (D : ℚ) (k : Int) (hk : 0 < k) (hk' : k < 20)
    (h1 : (2 : ℚ) ^ (9 - F.emax - F.p) ≤ D) (h2 : D ≤ 2 ^ (F.emax + F.p - k)) :
    (2 : ℚ) ^ (9 - F.emax - F.p) ≤ R.fl D ∧ R.fl D ≤ 2 ^ (F.emax + F.p - k) := by
  have hp := hF.p
  have hlow := hF.low
  have hneg := hF.neg
  have hpos := hF.pos
  have e1 : R.fl (2 ^ (9 - F.emax - (F.p : Int))) = 2 ^ (9 - F.emax - (F.p : Int)) :=
    R.exact _ (rep_pow hF _ (by omega) (by omega))
  have e2 : R.fl (2 ^ (F.emax + (F.p : Int) - k)) = 2 ^ (F.emax + (F.p : Int) - k) := by
    apply R.exact
    exact rep_pow hF _ (by omega) (by omega)
  constructor
  · rw [← e1]; exact fl_mono R _ _ h1
  · rw [← e2]; exact fl_mono R _ _ h2

theorem scaleFloat_stretch {F : Format} (R : Rounding F) (hF : Usual F) (mn mx : ℚ)
    (h1 : (2 : ℚ) ^ (9 - F.emax - F.p) ≤ mx - mn) (h2 : mx - mn ≤ 2 ^ (F.emax + F.p - 1)) :
    Stretch mn mx (fun x => toByte (scaleFloat R mn mx x)) := by
  have hle : mn ≤ mx := by have := two_zpow_pos (9 - F.emax - F.p); linarith
  have hee : F.emin ≤ F.emax := by have := hF.neg; have := hF.pos; omega
  have z : R.fl 0 = 0 := R.exact 0 (rep_zero F hee)
  obtain ⟨d1, d2⟩ := range_bounds R hF (mx - mn) 1 (by norm_num) (by norm_num) h1 h2
  have hd : 0 < R.fl (mx - mn) := lt_of_lt_of_le (two_zpow_pos _) d1
  obtain ⟨f1, f2⟩ := factor_bounds R hF _ d1 d2
  have hr : 0 ≤ R.fl (255 / R.fl (mx - mn)) := by
    have := fl_mono R 0 (255 / R.fl (mx - mn)) (by positivity)
    rwa [z] at this
  have heq : ∀ x, scaleFloat R mn mx x = R.fl (R.fl (clip mn mx x - mn) * R.fl (255 / R.fl (mx - mn))) := by
    intro x
    unfold scaleFloat
    rw [add_zero, R.exact _ (R.rep _)]
  have c0 : ∀ x, 0 ≤ R.fl (clip mn mx x - mn) := by
    intro x
    have := fl_mono R 0 (clip mn mx x - mn) (by linarith [clip_ge mn mx x hle])
    rwa [z] at this
  have c1 : ∀ x, R.fl (clip mn mx x - mn) ≤ R.fl (mx - mn) := fun x => fl_mono R _ _ (by linarith [clip_le mn mx x])
  apply stretch_of
  · intro x y h
    rw [heq, heq]
    apply fl_mono
    exact mul_le_mul_of_nonneg_right (fl_mono R _ _ (by linarith [clip_mono mn mx h])) hr
  · intro x
    rw [heq]
    have := fl_mono R 0 _ (mul_nonneg (c0 x) hr)
    rwa [z] at this
  · intro x
    rw [heq]
    have e : R.fl (((1021 : Int) : ℚ) / 4) = ((1021 : Int) : ℚ) / 4 := R.exact _ (rep_quarter hF 1021 (by norm_num))
    have h : R.fl (clip mn mx x - mn) * R.fl (255 / R.fl (mx - mn)) ≤ ((1021 : Int) : ℚ) / 4 := by
      have := mul_le_mul_of_nonneg_right (c1 x) hr
      push_cast
      linarith
    have := fl_mono R _ _ h
    rw [e] at this
    push_cast at this
    linarith
  · intro x hx
    rw [heq, clip_low mn mx x hle hx, sub_self, z, zero_mul, z]
  · intro x hx
    rw [heq, clip_high mn mx x hle hx]
    have e : R.fl (((1019 : Int) : ℚ) / 4) = ((1019 : Int) : ℚ) / 4 := R.exact _ (rep_quarter hF 1019 (by norm_num))
    have h : ((1019 : Int) : ℚ) / 4 ≤ R.fl (mx - mn) * R.fl (255 / R.fl (mx - mn)) := by push_cast; linarith
    have := fl_mono R _ _ h
    rw [e] at this
    push_cast at this
    linarith

theorem scaleFloatInplace_stretch {F : Format} (R : Rounding F) (hF : Usual F) (mn mx : ℚ)
    (h1 : (2 : ℚ) ^ (9 - F.emax - F.p) ≤ mx - mn) (h2 : mx - mn ≤ 2 ^ (F.emax + F.p - 9)) :
    Stretch mn mx (fun x => toByte (scaleFloatInplace R mn mx x)) := by
  have hle : mn ≤ mx := by have := two_zpow_pos (9 - F.emax - F.p); linarith
  have hee : F.emin ≤ F.emax := by have := hF.neg; have := hF.pos; omega
  have z : R.fl 0 = 0 := R.exact 0 (rep_zero F hee)
  obtain ⟨d1, d2⟩ := range_bounds R hF (mx - mn) 9 (by norm_num) (by norm_num) h1 h2
  have hd : 0 < R.fl (mx - mn) := lt_of_lt_of_le (two_zpow_pos _) d1
  have herr : |R.fl (R.fl (mx - mn) * 255) - R.fl (mx - mn) * 255| ≤ R.fl (mx - mn) * 255 * (1 / 2048) := by
    refine le_trans (fl_error R _ ?_ ?_) (mul_le_mul_of_nonneg_left (eps_small hF) (by positivity))
    · have : (2 : ℚ) ^ (F.emin + F.p - 1) ≤ 2 ^ (9 - F.emax - F.p) :=
        zpow_le_zpow_right₀ (by norm_num) (by have := hF.low; omega)
      linarith
    · calc R.fl (mx - mn) * 255 ≤ 2 ^ (F.emax + F.p - 9) * 255 := mul_le_mul_of_nonneg_right d2 (by norm_num)
        _ < 2 ^ (F.emax + F.p - 9) * 2 ^ (9 : Int) := mul_lt_mul_of_pos_left (by norm_num) (two_zpow_pos _)
        _ = 2 ^ (F.emax + F.p) := by rw [← zpow_add₀ (by norm_num)]; congr 1; ring
  rw [abs_le] at herr
  have heq : ∀ x, scaleFloatInplace R mn mx x = R.fl (R.fl (R.fl (clip mn mx x - mn) * 255) / R.fl (mx - mn)) := by
    intro x
    unfold scaleFloatInplace
    rw [add_zero, R.exact _ (R.rep _)]
  have c0 : ∀ x, 0 ≤ R.fl (clip mn mx x - mn) := by
    intro x
    have := fl_mono R 0 (clip mn mx x - mn) (by linarith [clip_ge mn mx x hle])
    rwa [z] at this
  have c1 : ∀ x, R.fl (clip mn mx x - mn) ≤ R.fl (mx - mn) := fun x => fl_mono R _ _ (by linarith [clip_le mn mx x])
  have m0 : ∀ x, 0 ≤ R.fl (R.fl (clip mn mx x - mn) * 255) := by
    intro x
    have := fl_mono R 0 (R.fl (clip mn mx x - mn) * 255) (mul_nonneg (c0 x) (by norm_num))
    rwa [z] at this
  apply stretch_of
  · intro x y h
    rw [heq, heq]
    apply fl_mono
    apply div_le_div_of_nonneg_right _ (le_of_lt hd)
    apply fl_mono
    exact mul_le_mul_of_nonneg_right (fl_mono R _ _ (by linarith [clip_mono mn mx h])) (by norm_num)
  · intro x
    rw [heq]
    have := fl_mono R 0 _ (div_nonneg (m0 x) (le_of_lt hd))
    rwa [z] at this
  · intro x
    rw [heq]
    have e : R.fl (((1021 : Int) : ℚ) / 4) = ((1021 : Int) : ℚ) / 4 := R.exact _ (rep_quarter hF 1021 (by norm_num))
    have h : R.fl (R.fl (clip mn mx x - mn) * 255) / R.fl (mx - mn) ≤ ((1021 : Int) : ℚ) / 4 := by
      rw [div_le_iff₀ hd]
      have := fl_mono R _ _ (mul_le_mul_of_nonneg_right (c1 x) (by norm_num : (0 : ℚ) ≤ 255))
      push_cast
      linarith
    have := fl_mono R _ _ h
    rw [e] at this
    push_cast at this
    linarith
  · intro x hx
    rw [heq, clip_low mn mx x hle hx, sub_self, z, zero_mul, z, zero_div, z]
  · intro x hx
    rw [heq, clip_high mn mx x hle hx]
    have e : R.fl (((1019 : Int) : ℚ) / 4) = ((1019 : Int) : ℚ) / 4 := R.exact _ (rep_quarter hF 1019 (by norm_num))
    have h : ((1019 : Int) : ℚ) / 4 ≤ R.fl (R.fl (mx - mn) * 255) / R.fl (mx - mn) := by
      rw [le_div_iff₀ hd]
      push_cast
      linarith
    have := fl_mono R _ _ h
    rw [e] at this
    push_cast at this
    linarith

/-! ### integers -/

theorem clip_cast (mn mx x : Int) : ((clip mn mx x : Int) : ℚ) = clip (mn : ℚ) (mx : ℚ) (x : ℚ) := by
  unfold clip
  push_cast
  rfl

theorem iclip_ge (mn mx x : Int) (h : mn ≤ mx) : mn ≤ clip mn mx x := le_min (le_max_right _ _) h
theorem iclip_le (mn mx x : Int) : clip mn mx x ≤ mx := min_le_right _ _

theorem lo_nonpos (t : IntType) : lo t ≤ 0 := by
  unfold lo
  split
  · have : (0 : Int) < 2 ^ (t.bits - 1) := by positivity
    omega
  · exact le_refl _

theorem scaleInt_stretch (R : Rounding double) (t : IntType) (ht : 1 ≤ t.bits) (ht' : t.bits ≤ 64) (mn mx : Int) (h : mn < mx)
    (hfit : mx - mn ≤ hi t) : Stretch mn mx (fun x => toByte (scaleInt R t mn mx x)) := by
  have heq : ∀ x, scaleInt R t mn mx x = scaleFloat R mn mx x := by
    intro x
    have a1 := iclip_ge mn mx x (le_of_lt h)
    have a2 := iclip_le mn mx x
    have hl := lo_nonpos t
    unfold scaleInt scaleFloat
    rw [wrap_id t ht _ (by omega) (by omega), wrap_id t ht _ (by omega) hfit, ← clip_cast]
    push_cast
    rfl
  have hhi : hi t ≤ 2 ^ 64 := by
    have h1 : (2 : Int) ^ t.bits ≤ 2 ^ 64 := pow_le_pow_right₀ (by norm_num) ht'
    have h2 : (2 : Int) ^ (t.bits - 1) ≤ 2 ^ 64 := pow_le_pow_right₀ (by norm_num) (by omega)
    unfold hi
    split <;> omega
  have hS := scaleFloat_stretch R usual_double (mn : ℚ) (mx : ℚ) (by
      have : (2 : ℚ) ^ (9 - double.emax - (double.p : Int)) ≤ 2 ^ (0 : Int) := zpow_le_zpow_right₀ (by norm_num) (by decide)
      have h1 : ((mn + 1 : Int) : ℚ) ≤ (mx : ℚ) := by exact_mod_cast h
      push_cast at h1
      rw [zpow_zero] at this
      linarith) (by
      have : (2 : ℚ) ^ (64 : Int) ≤ 2 ^ (double.emax + (double.p : Int) - 1) := zpow_le_zpow_right₀ (by norm_num) (by decide)
      have h1 : ((mx - mn : Int) : ℚ) ≤ ((2 ^ 64 : Int) : ℚ) := by exact_mod_cast le_trans hfit hhi
      push_cast at h1
      norm_num at this h1 ⊢
      linarith)
  have hc : ∀ x y : Int, x ≤ y → (x : ℚ) ≤ (y : ℚ) := fun x y h => by exact_mod_cast h
  refine ⟨?_, ?_, ?_, ?_, ?_⟩ <;> simp only [heq]
  · exact fun x => hS.low x
  · exact fun x => hS.high x
  · exact fun x y hxy => hS.mono x y (hc x y hxy)
  · exact fun x hx => hS.black x (hc x mn hx)
  · exact fun x hx => hS.white x (hc mx x hx)

theorem scaleIntInplace_stretch (t : IntType) (ht : 1 ≤ t.bits) (mn mx : Int) (h : mn < mx) (hfit : (mx - mn) * 255 ≤ hi t) :
    Stretch mn mx (fun x => wrap uint8 (scaleIntInplace t mn mx x)) ∧
    ∀ x, scaleIntInplace t mn mx x = (clip mn mx x - mn) * 255 / (mx - mn) := by
  have hl := lo_nonpos t
  have hd : 0 < mx - mn := by omega
  have b : ∀ x, 0 ≤ (clip mn mx x - mn) * 255 / (mx - mn) ∧ (clip mn mx x - mn) * 255 / (mx - mn) ≤ 255 := by
    intro x
    have a1 := iclip_ge mn mx x (le_of_lt h)
    have a2 := iclip_le mn mx x
    constructor
    · exact Int.ediv_nonneg (by nlinarith) (le_of_lt hd)
    · apply Int.ediv_le_of_le_mul hd
      nlinarith
  have heq : ∀ x, scaleIntInplace t mn mx x = (clip mn mx x - mn) * 255 / (mx - mn) := by
    intro x
    have a1 := iclip_ge mn mx x (le_of_lt h)
    have a2 := iclip_le mn mx x
    have h255 : 255 ≤ hi t := le_trans (by nlinarith) hfit
    unfold scaleIntInplace
    rw [wrap_id t ht (clip mn mx x - mn) (by omega) (by omega), wrap_id t ht (mx - mn) (by omega) (by omega),
      wrap_id t ht ((clip mn mx x - mn) * 255) (by omega) (by omega),
      wrap_id t ht _ (by have := (b x).1; omega) (by have := (b x).2; omega)]
  refine ⟨?_, heq⟩
  have hw : ∀ x, wrap uint8 (scaleIntInplace t mn mx x) = (clip mn mx x - mn) * 255 / (mx - mn) := by
    intro x
    rw [heq]
    exact wrap_id uint8 (by decide) _ (b x).1 (b x).2
  refine ⟨?_, ?_, ?_, ?_, ?_⟩ <;> simp only [hw]
  · exact fun x => (b x).1
  · exact fun x => (b x).2
  · intro x y hxy
    apply Int.ediv_le_ediv hd
    have : clip mn mx x ≤ clip mn mx y := min_le_min (max_le_max hxy (le_refl _)) (le_refl _)
    nlinarith
  · intro x hx
    have : clip mn mx x = mn := by unfold clip; rw [max_eq_right hx, min_eq_left (le_of_lt h)]
    rw [this, sub_self, zero_mul, Int.zero_ediv]
  · intro x hx
    have : clip mn mx x = mx := by unfold clip; rw [max_eq_left (by omega), min_eq_right hx]
    rw [this, mul_comm, Int.mul_ediv_cancel _ (ne_of_gt hd)]

/-! ### the theorems -/

theorem foldl_min_spec {α : Type} [LinearOrder α] (x : α) (xs : List α) :
    xs.foldl min x ∈ x :: xs ∧ ∀ y ∈ x :: xs, xs.foldl min x ≤ y := by
  induction xs generalizing x with
  | nil => simp
  | cons z zs ih =>
    rw [List.foldl_cons]
    obtain ⟨h1, h2⟩ := ih (min x z)
    constructor
    · rcases List.mem_cons.1 h1 with h | h
      · rw [h]
        rcases min_choice x z with h' | h' <;> simp [h']
      · simp [h]
    · intro y hy
      have hm := h2 _ (List.mem_cons_self ..)
      rcases List.mem_cons.1 hy with rfl | hy
      · exact le_trans hm (min_le_left _ _)
      · rcases List.mem_cons.1 hy with rfl | hy
        · exact le_trans hm (min_le_right _ _)
        · exact h2 _ (List.mem_cons_of_mem _ hy)

theorem foldl_max_spec {α : Type} [LinearOrder α] (x : α) (xs : List α) :
    xs.foldl max x ∈ x :: xs ∧ ∀ y ∈ x :: xs, y ≤ xs.foldl max x := by
  induction xs generalizing x with
  | nil => simp
  | cons z zs ih =>
    rw [List.foldl_cons]
    obtain ⟨h1, h2⟩ := ih (max x z)
    constructor
    · rcases List.mem_cons.1 h1 with h | h
      · rw [h]
        rcases max_choice x z with h' | h' <;> simp [h']
      · simp [h]
    · intro y hy
      have hm := h2 _ (List.mem_cons_self ..)
      rcases List.mem_cons.1 hy with rfl | hy
      · exact le_trans (le_max_left _ _) hm
      · rcases List.mem_cons.1 hy with rfl | hy
        · exact le_trans (le_max_right _ _) hm
        · exact h2 _ (List.mem_cons_of_mem _ hy)

theorem mem_valid {α : Type} (px : List (α × Bool)) (x : α) : x ∈ valid px ↔ (x, false) ∈ px := by
  unfold valid
  rw [List.mem_map]
  constructor
  · rintro ⟨⟨a, m⟩, he, rfl⟩
    rw [List.mem_filter] at he
    cases m
    · exact he.1
    · simp at he
  · intro h
    exact ⟨(x, false), List.mem_filter.2 ⟨h, rfl⟩, rfl⟩

/-- **C25 (the range that is shown).** Without clipping, the values are stretched from the smallest to the largest element
that is not masked. -/
theorem C25_bounds {α : Type} [LinearOrder α] (pct : List α → ℚ → α) (px : List (α × Bool)) (mn mx : α)
    (h : boundsOf pct 0 0 (valid px) = some (mn, mx)) :
    (mn, false) ∈ px ∧ (mx, false) ∈ px ∧ ∀ x, (x, false) ∈ px → mn ≤ x ∧ x ≤ mx := by
  cases hv : valid px with
  | nil => rw [hv] at h; cases h
  | cons x xs =>
    rw [hv] at h
    simp only [boundsOf, ne_eq, not_true_eq_false, if_false, Option.some.injEq, Prod.mk.injEq] at h
    obtain ⟨rfl, rfl⟩ := h
    have a := foldl_min_spec x xs
    have b := foldl_max_spec x xs
    rw [← hv] at a b
    refine ⟨(mem_valid px _).1 a.1, (mem_valid px _).1 b.1, fun y hy => ⟨a.2 y ?_, b.2 y ?_⟩⟩ <;>
      exact (mem_valid px y).2 hy

/-- what an image becomes, as pixels: masked elements have the colour, all others are grey -/
def shown {α : Type} (color : Nat → Int) (f : α → Int) (e : α × Bool) : List Int :=
  if e.2 then [color 0, color 1, color 2] else [f e.1, f e.1, f e.1]

theorem pixels_shown {α : Type} (color : Nat → Int) (f : α → Int) (px : List (α × Bool)) :
    pixels true (some color) (px.map fun e => (f e.1, e.2)) = px.map (shown color f) := by
  show ((px.map fun e => (f e.1, e.2)).map fun e => (List.range 3).map fun ch => colorfill color ch e) = _
  rw [List.map_map]
  apply List.map_congr_left
  intro e _
  simp only [Function.comp_apply, shown, colorfill]
  have : List.range 3 = [0, 1, 2] := rfl
  rw [this]
  cases e.2 <;> simp

/-- **C25 (floats).** float32 and float64 images whose bounds (the extremes, or the percentiles) differ and are neither
absurdly close nor far apart: the elements become bytes by a map that stays within 0 and 255, keeps the order, and takes
everything up to the lower bound to 0 and everything from the upper bound on to 255; the pixels of a masked array are
these greys, and the colour where it is masked. -/
theorem C25_floats {F : Format} (hF : F = single ∨ F = double) (R : Rounding F) (pct : List ℚ → ℚ → ℚ) (inplace masked nice : Bool)
    (low high : ℚ) (px : List (ℚ × Bool)) (mn mx : ℚ) (hb : boundsOf pct low high (valid px) = some (mn, mx))
    (h1 : (2 : ℚ) ^ (9 - F.emax - F.p) ≤ mx - mn) (h2 : mx - mn ≤ 2 ^ (F.emax + F.p - 9)) :
    ∃ f, Stretch mn mx f ∧
      eightbitFloat R pct inplace masked low high nice px = .ok (px.map fun e => (f e.1, e.2)) ∧
      ∀ color, (eightbitFloat R pct inplace masked low high nice px).map (pixels true (some color)) =
        .ok (px.map (shown color f)) := by
  have hU : Usual F := by
    rcases hF with rfl | rfl
    · exact usual_single
    · exact usual_double
  have hne : mn ≠ mx := by
    have := two_zpow_pos (9 - F.emax - F.p)
    intro h
    rw [h] at h1
    linarith
  have h2' : mx - mn ≤ 2 ^ (F.emax + F.p - 1) :=
    le_trans h2 (zpow_le_zpow_right₀ (by norm_num) (by omega))
  have key : eightbitFloat R pct inplace masked low high nice px = .ok (px.map fun e =>
      (toByte (if inplace then scaleFloatInplace R mn mx e.1 else scaleFloat R mn mx e.1), e.2)) := by
    unfold eightbitFloat eightbit
    simp only [hb, hne, if_false]
  refine ⟨fun x => toByte (if inplace then scaleFloatInplace R mn mx x else scaleFloat R mn mx x), ?_, key, ?_⟩
  · cases inplace
    · exact scaleFloat_stretch R hU mn mx h1 h2'
    · exact scaleFloatInplace_stretch R hU mn mx h1 h2
  · intro color
    rw [key]
    exact congrArg Except.ok (pixels_shown color
      (fun x => toByte (if inplace then scaleFloatInplace R mn mx x else scaleFloat R mn mx x)) px)

/-- **C25 (integers).** The same for images of integers of 8 and 16 bits (any bounds that differ), and for wider ones if
the difference of the bounds fits their type; in place, if 255 times the difference does. -/
theorem C25_integers (R : Rounding double) (pct : List Int → ℚ → Int) (t : IntType) (ht : t ∈ IntType.all) (inplace masked nice : Bool)
    (low high : ℚ) (px : List (Int × Bool)) (mn mx : Int) (hb : boundsOf pct low high (valid px) = some (mn, mx)) (hlt : mn < mx)
    (hfit : t.bits ≤ 16 ∧ lo t ≤ mn ∧ mx ≤ hi t ∨ (if inplace then (mx - mn) * 255 else mx - mn) ≤ hi t) :
    ∃ f, Stretch mn mx f ∧
      eightbitInt R pct inplace t masked low high nice px = .ok (px.map fun e => (f e.1, e.2)) ∧
      ∀ color, (eightbitInt R pct inplace t masked low high nice px).map (pixels true (some color)) =
        .ok (px.map (shown color f)) := by
  have ht1 : 1 ≤ t.bits ∧ t.bits ≤ 64 := by
    rcases all_cases ht with rfl | rfl | rfl | rfl | rfl | rfl | rfl | rfl <;> decide
  let t' := if t.bits ≤ 16 then int32 else t
  have ht' : 1 ≤ t'.bits ∧ t'.bits ≤ 64 := by
    simp only [t']
    split
    · decide
    · exact ht1
  have hfit' : (if inplace then (mx - mn) * 255 else mx - mn) ≤ hi t' := by
    simp only [t']
    by_cases hb : t.bits ≤ 16
    · rw [if_pos hb]
      have hr : mx - mn ≤ 65535 := by
        rcases hfit with ⟨_, h1, h2⟩ | h
        · have : hi t - lo t ≤ 65535 := by
            rcases all_cases ht with rfl | rfl | rfl | rfl | rfl | rfl | rfl | rfl <;>
              first | decide | (exfalso; revert hb; decide)
          omega
        · have : hi t ≤ 65535 := by
            rcases all_cases ht with rfl | rfl | rfl | rfl | rfl | rfl | rfl | rfl <;>
              first | decide | (exfalso; revert hb; decide)
          cases inplace
          · simp at h; omega
          · simp at h; omega
      have : hi int32 = 2147483647 := rfl
      cases inplace
      · simp; omega
      · simp; omega
    · rw [if_neg hb]
      exact hfit.resolve_left (fun h => hb h.1)
  have key : eightbitInt R pct inplace t masked low high nice px = .ok (px.map fun e =>
      (if inplace then wrap uint8 (scaleIntInplace t' mn mx e.1) else toByte (scaleInt R t' mn mx e.1), e.2)) := by
    unfold eightbitInt eightbit
    simp only [hb, ne_of_lt hlt, if_false]
    rfl
  refine ⟨fun x => if inplace then wrap uint8 (scaleIntInplace t' mn mx x) else toByte (scaleInt R t' mn mx x), ?_, key, ?_⟩
  · cases inplace
    · exact scaleInt_stretch R t' ht'.1 ht'.2 mn mx hlt hfit'
    · exact (scaleIntInplace_stretch t' ht'.1 mn mx hlt hfit').1
  · intro color
    rw [key]
    exact congrArg Except.ok (pixels_shown color
      (fun x => if inplace then wrap uint8 (scaleIntInplace t' mn mx x) else toByte (scaleInt R t' mn mx x)) px)

/-- **C25 (masked elements).** The values below the mask do not matter: two masked images with the same mask and the same
elements elsewhere are shown as the same pixels. -/
theorem C25_masked {α : Type} [Min α] [Max α] [DecidableEq α] (pct : List α → ℚ → α) (byte : α → Int) (scale : α → α → α → Int)
    (low high : ℚ) (nice : Bool) (px px' : List (α × Bool)) (color : Nat → Int)
    (h : List.Forall₂ (fun e e' => e.2 = e'.2 ∧ (e.2 = false → e.1 = e'.1)) px px') :
    (eightbit pct byte scale true low high nice px).map (pixels true (some color)) =
      (eightbit pct byte scale true low high nice px').map (pixels true (some color)) := by
  have hv : valid px = valid px' := by
    unfold valid
    induction h with
    | nil => rfl
    | @cons e e' l l' he _ ih =>
      obtain ⟨a, m⟩ := e
      obtain ⟨a', m'⟩ := e'
      obtain ⟨h1, h2⟩ := he
      simp only at h1 h2
      subst h1
      cases m
      · rw [List.filter_cons_of_pos (by rfl), List.filter_cons_of_pos (by rfl), List.map_cons, List.map_cons, ih, h2 rfl]
      · rw [List.filter_cons_of_neg (by simp), List.filter_cons_of_neg (by simp), ih]
  have hs : ∀ f : α → Int, px.map (shown color f) = px'.map (shown color f) := by
    intro f
    clear hv
    induction h with
    | nil => rfl
    | @cons e e' l l' he _ ih =>
      obtain ⟨a, m⟩ := e
      obtain ⟨a', m'⟩ := e'
      obtain ⟨h1, h2⟩ := he
      simp only at h1 h2
      subst h1
      rw [List.map_cons, List.map_cons, ih]
      cases m
      · rw [h2 rfl]
      · rfl
  unfold eightbit
  rw [hv]
  cases boundsOf pct low high (valid px') with
  | none => exact congrArg Except.ok (by rw [pixels_shown, pixels_shown, hs])
  | some b =>
    obtain ⟨mn, mx⟩ := b
    simp only
    split
    · split
      · exact congrArg Except.ok (by rw [pixels_shown, pixels_shown, hs])
      · rfl
    · exact congrArg Except.ok (by rw [pixels_shown (f := scale mn mx), pixels_shown (f := scale mn mx), hs])

/-! ### bands -/

theorem pyIndex_spec (n : Nat) (i : Int) (k : Nat) : pyIndex n i = .ok k ↔ Names n i k := by
  unfold pyIndex Names
  split
  · rename_i h
    simp only [Except.ok.injEq]
    omega
  · split
    · rename_i h1 h
      simp only [Except.ok.injEq]
      omega
    · constructor
      · intro h; cases h
      · intro h; omega

theorem middle_ok (n : Nat) (hn : 1 ≤ n) : ∃ k, k < n ∧ pyIndex n (roundEven ((n : ℚ) / 2)) = .ok k ∧
    (n = 2 * k ∨ n = 2 * k + 1 ∨ n + 1 = 2 * k) := by
  obtain ⟨m, hm | hm⟩ : ∃ m : Nat, n = 2 * m ∨ n = 2 * m + 1 := ⟨n / 2, by omega⟩
  · have : roundEven ((n : ℚ) / 2) = m := by
      have : ((n : ℚ) / 2) = ((m : Int) : ℚ) := by rw [hm]; push_cast; ring
      rw [this, roundEven_int]
    rw [this]
    exact ⟨m, by omega, (pyIndex_spec n m m).2 ⟨by omega, .inl rfl⟩, .inl hm⟩
  · have hx : (n : ℚ) / 2 = (m : ℚ) + 1 / 2 := by rw [hm]; push_cast; ring
    have hfl : ⌊(m : ℚ) + 1 / 2⌋ = (m : Int) := by
      rw [Int.floor_eq_iff]
      push_cast
      constructor <;> linarith
    have : roundEven ((n : ℚ) / 2) = if (m : Int) % 2 = 0 then (m : Int) else m + 1 := by
      unfold roundEven
      rw [hx, hfl]
      push_cast
      rw [if_neg (by linarith), if_neg (by linarith)]
    rw [this]
    split
    · exact ⟨m, by omega, (pyIndex_spec n m m).2 ⟨by omega, .inl rfl⟩, .inr (.inl hm)⟩
    · exact ⟨m + 1, by omega, (pyIndex_spec n _ (m + 1)).2 ⟨by omega, .inl (by push_cast; rfl)⟩, .inr (.inr (by omega))⟩

/-- the middle band, if there is one -/
theorem singleBand_spec (n : Nat) (hn : 1 ≤ n) (b : BandIx) :
    ∃ k, k < n ∧ singleBand n b = .ok (.single k) ∧
      ((∃ i, b = .int i ∧ Names n i k) ∨ (∀ i, b = .int i → ∀ j, ¬ Names n i j) ∧ (n = 2 * k ∨ n = 2 * k + 1 ∨ n + 1 = 2 * k)) := by
  obtain ⟨k, hk, hmid, hcase⟩ := middle_ok n hn
  have hdef : (pyIndex n (roundEven ((n : ℚ) / 2))).map Selection.single = .ok (.single k) := by rw [hmid]; rfl
  cases b with
  | int i =>
    cases hi : pyIndex n i with
    | ok j =>
      have hN := (pyIndex_spec n i j).1 hi
      exact ⟨j, hN.1, by simp only [singleBand, hi], .inl ⟨i, rfl, hN⟩⟩
    | error e =>
      refine ⟨k, hk, by simp only [singleBand, hi, hdef], .inr ⟨?_, hcase⟩⟩
      intro i' h j hj
      injection h with h
      subst h
      rw [(pyIndex_spec n i j).2 hj] at hi
      cases hi
  | none => exact ⟨k, hk, by simp only [singleBand, hdef], .inr ⟨(by intro i h; cases h), hcase⟩⟩
  | burst => exact ⟨k, hk, by simp only [singleBand, hdef], .inr ⟨(by intro i h; cases h), hcase⟩⟩
  | other => exact ⟨k, hk, by simp only [singleBand, hdef], .inr ⟨(by intro i h; cases h), hcase⟩⟩

/-- **C25 (bands).** An array with `n` ≥ 1 bands: whatever is chosen, only bands the array has are shown. Without
`rgb_channels` something is always shown: an array of 3 or 4 bands, unless overridden, as red, green and blue in its first
three; otherwise every band in order ("burst"), or one band: the one `band_ix` names, and if it names none the
middle one. `rgb_channels` shows the three bands it names. -/
theorem C25_bands (n : Nat) (hn : 1 ≤ n) (b : BandIx) (ov : Bool) :
    (∀ ch sel, selectBands n b ov ch = .ok sel → ∀ k ∈ bands sel, k < n) ∧
    ((n = 3 ∨ n = 4) → ov = false → selectBands n b ov none = .ok (.rgb 0 1 2)) ∧
    (¬ (n = 3 ∨ n = 4) ∨ ov = true → selectBands n .burst ov none = .ok (.burst (List.range n))) ∧
    (¬ (n = 3 ∨ n = 4) ∨ ov = true → b ≠ .burst → ∃ k, selectBands n b ov none = .ok (.single k) ∧
      ((∃ i, b = .int i ∧ Names n i k) ∨ (∀ i, b = .int i → ∀ j, ¬ Names n i j) ∧ (n = 2 * k ∨ n = 2 * k + 1 ∨ n + 1 = 2 * k))) ∧
    (∀ i j k r g bl, Names n i r → Names n j g → Names n k bl →
      selectBands n b ov (some (i, j, k)) = .ok (.rgb r g bl)) := by
  obtain ⟨m, hm, hsb, hcase⟩ := singleBand_spec n hn b
  have hsingle : ¬ (n = 3 ∨ n = 4) ∨ ov = true → b ≠ .burst → selectBands n b ov none = singleBand n b := by
    intro h hb
    unfold selectBands
    simp only [if_pos h]
  have hburst : ¬ (n = 3 ∨ n = 4) ∨ ov = true → selectBands n .burst ov none = .ok (.burst (List.range n)) := by
    intro h
    unfold selectBands
    simp only [if_pos h]
  have hrgb : ¬ (¬ (n = 3 ∨ n = 4) ∨ ov = true) → selectBands n b ov none = .ok (.rgb 0 1 2) := by
    intro h
    unfold selectBands
    simp only [if_neg h]
  refine ⟨?_, ?_, hburst, ?_, ?_⟩
  · intro ch sel hsel k hk
    cases ch with
    | some c =>
      unfold selectBands rgbBands at hsel
      simp only [bind, Except.bind] at hsel
      cases h1 : pyIndex n c.1 with
      | error e => rw [h1] at hsel; cases hsel
      | ok r =>
        cases h2 : pyIndex n c.2.1 with
        | error e => rw [h1, h2] at hsel; cases hsel
        | ok g =>
          cases h3 : pyIndex n c.2.2 with
          | error e => rw [h1, h2, h3] at hsel; cases hsel
          | ok bl =>
            rw [h1, h2, h3] at hsel
            injection hsel with hsel
            subst hsel
            simp only [bands, List.mem_cons, List.not_mem_nil, or_false] at hk
            have a1 := ((pyIndex_spec _ _ _).1 h1).1
            have a2 := ((pyIndex_spec _ _ _).1 h2).1
            have a3 := ((pyIndex_spec _ _ _).1 h3).1
            rcases hk with rfl | rfl | rfl <;> assumption
    | none =>
      by_cases h : ¬ (n = 3 ∨ n = 4) ∨ ov = true
      · by_cases hb : b = .burst
        · subst hb
          rw [hburst h] at hsel
          injection hsel with hsel
          subst hsel
          simpa [bands] using hk
        · rw [hsingle h hb, hsb] at hsel
          injection hsel with hsel
          subst hsel
          simp only [bands, List.mem_singleton] at hk
          omega
      · rw [hrgb h] at hsel
        injection hsel with hsel
        subst hsel
        simp only [bands, List.mem_cons, List.not_mem_nil, or_false] at hk
        omega
  · intro h3 hov
    exact hrgb (by simp [h3, hov])
  · intro h hb
    exact ⟨m, by rw [hsingle h hb, hsb], hcase⟩
  · intro i j k r g bl h1 h2 h3
    unfold selectBands rgbBands
    simp only [(pyIndex_spec _ _ _).2 h1, (pyIndex_spec _ _ _).2 h2, (pyIndex_spec _ _ _).2 h3, bind, Except.bind]

/-- **C25 (slices).** Cutting a three-dimensional array along an axis: band `k` has the elements with `k` in that place
of the index; the other two places keep their order for axes 0 and 1 and are exchanged for axis 2. -/
theorem C25_slices {α : Type} (obj : Nat → Nat → Nat → α) (k i j a b c : Nat) :
    sliceAt 0 obj k i j = obj k i j ∧ sliceAt 1 obj k i j = obj i k j ∧ sliceAt 2 obj k i j = obj j i k ∧
    (swapShape 0 a b c).1 = a ∧ (swapShape 1 a b c).1 = b ∧ (swapShape 2 a b c).1 = c := ⟨rfl, rfl, rfl, rfl, rfl, rfl⟩

/-! ### size -/

theorem foldl_max_nat (l : List Nat) (m : Nat) : m ≤ l.foldl max m ∧ ∀ a ∈ l, a ≤ l.foldl max m := by
  induction l generalizing m with
  | nil => simp
  | cons x xs ih =>
    rw [List.foldl_cons]
    obtain ⟨h1, h2⟩ := ih (max m x)
    refine ⟨by omega, ?_⟩
    intro a ha
    rcases List.mem_cons.1 ha with rfl | ha
    · omega
    · exact h2 a ha

/-- **C25 (size).** The size asked for an image to be saved: its own if no axis of the array is longer than 65500;
otherwise every side is reduced by the same factor 1/n, `n` the least for which the longest axis is (as a float) at most
65500, and none is longer than that. -/
theorem C25_size (R : Rounding double) (axes size : List Nat) (hsub : ∀ a ∈ size, a ∈ axes)
    (hbig : ∀ a ∈ axes, a < 2 ^ 63) :
    ((∀ a ∈ axes, a ≤ 65500) → browseSize R axes size = some (size.map fun a : Nat => (a : Int))) ∧
    ((∃ a ∈ axes, 65500 < a) → ∃ n : Nat, 1 ≤ n ∧
      browseSize R axes size = some (size.map fun a : Nat => ⌊R.fl ((a : ℚ) * R.fl (1 / (n : ℚ)))⌋) ∧
      (∀ a ∈ axes, R.fl (a * R.fl (1 / (n : ℚ))) ≤ 65500) ∧
      ∀ k, 1 ≤ k → k < n → ∃ a ∈ axes, 65500 < R.fl (a * R.fl (1 / (k : ℚ)))) ∧
    ∀ out, browseSize R axes size = some out → ∀ x ∈ out, x ≤ 65500 := by
  have hmem : ∀ l : List Nat, ∀ m, l.foldl max m = m ∨ l.foldl max m ∈ l := by
    intro l
    induction l with
    | nil => intro m; simp
    | cons x xs ih =>
      intro m
      rw [List.foldl_cons]
      rcases ih (max m x) with h | h
      · rw [h]
        rcases max_choice m x with h' | h' <;> simp [h']
      · simp [h]
  have hle := (foldl_max_nat axes 0).2
  have hz : R.fl 0 = 0 := R.exact 0 (rep_zero double (by decide))
  have hnn : ∀ k : Nat, 0 ≤ R.fl (1 / (k : ℚ)) := by
    intro k
    have := fl_mono R 0 (1 / (k : ℚ)) (by positivity)
    rwa [hz] at this
  have hmonoA : ∀ k a : Nat, a ≤ axes.foldl max 0 → R.fl (a * R.fl (1 / (k : ℚ))) ≤ R.fl ((axes.foldl max 0 : Nat) * R.fl (1 / (k : ℚ))) := by
    intro k a h
    apply fl_mono
    exact mul_le_mul_of_nonneg_right (by exact_mod_cast h) (hnn k)
  have hsmall : (∀ a ∈ axes, a ≤ 65500) → browseSize R axes size = some (size.map fun a : Nat => (a : Int)) := by
    intro h
    have : ¬ 65500 < axes.foldl max 0 := by
      rcases hmem axes 0 with h' | h'
      · omega
      · have := h _ h'; omega
    simp only [browseSize, if_neg this]
  have hlarge : (∃ a ∈ axes, 65500 < a) → ∃ n : Nat, 1 ≤ n ∧
      browseSize R axes size = some (size.map fun a : Nat => ⌊R.fl ((a : ℚ) * R.fl (1 / (n : ℚ)))⌋) ∧
      (∀ a ∈ axes, R.fl (a * R.fl (1 / (n : ℚ))) ≤ 65500) ∧
      ∀ k, 1 ≤ k → k < n → ∃ a ∈ axes, 65500 < R.fl (a * R.fl (1 / (k : ℚ))) := by
    rintro ⟨a0, ha0, h0⟩
    have hM : 65500 < axes.foldl max 0 := lt_of_lt_of_le h0 (hle a0 ha0)
    have hMin : axes.foldl max 0 ∈ axes := by
      rcases hmem axes 0 with h | h
      · omega
      · exact h
    have hM63 := hbig _ hMin
    generalize hMdef : axes.foldl max 0 = M at *
    have hMq : (0 : ℚ) < M := by exact_mod_cast (by omega : 0 < M)
    -- n = M is enough
    have hfin : R.fl (M * R.fl (1 / (M : ℚ))) ≤ 65500 := by
      have herr := fl_error R (1 / (M : ℚ)) (by
        have h1 : (2 : ℚ) ^ (double.emin + double.p - 1) ≤ 2 ^ (-63 : Int) := zpow_le_zpow_right₀ (by norm_num) (by decide)
        refine le_trans h1 ?_
        rw [le_div_iff₀ hMq]
        have : (M : ℚ) ≤ 2 ^ 63 := by exact_mod_cast le_of_lt hM63
        calc (2 : ℚ) ^ (-63 : Int) * M ≤ 2 ^ (-63 : Int) * 2 ^ 63 := mul_le_mul_of_nonneg_left this (le_of_lt (two_zpow_pos _))
          _ = 1 := by norm_num) (by
        have h1 : (2 : ℚ) ^ (1 : Int) ≤ 2 ^ (double.emax + double.p) := zpow_le_zpow_right₀ (by norm_num) (by decide)
        refine lt_of_lt_of_le ?_ h1
        rw [div_lt_iff₀ hMq]
        have : (1 : ℚ) ≤ M := by exact_mod_cast (by omega : 1 ≤ M)
        norm_num
        linarith)
      have heps := eps_small usual_double
      rw [abs_le] at herr
      have hinv : (0 : ℚ) < 1 / M := by positivity
      have : R.fl (1 / (M : ℚ)) ≤ 1 / M * 2 := by
        have := mul_le_mul_of_nonneg_left heps (le_of_lt hinv)
        linarith [herr.2]
      have h2 : M * R.fl (1 / (M : ℚ)) ≤ 65500 := by
        calc (M : ℚ) * R.fl (1 / (M : ℚ)) ≤ M * (1 / M * 2) := mul_le_mul_of_nonneg_left this (le_of_lt hMq)
          _ = 2 := by field_simp
          _ ≤ 65500 := by norm_num
      have h3 := fl_mono R _ _ h2
      rwa [R.exact 65500 ⟨65500, 0, by norm_num [double], by norm_num [double], by norm_num [double], by norm_num⟩] at h3
    cases hf : downscale R M with
    | none =>
      unfold downscale at hf
      rw [List.find?_eq_none] at hf
      have := hf M (List.mem_map.2 ⟨M - 1, by simp; omega, by omega⟩)
      simp only [decide_eq_true_eq] at this
      exact absurd hfin this
    | some n =>
      have hf' := hf
      unfold downscale at hf'
      have hn1 : 1 ≤ n := by
        obtain ⟨j, _, rfl⟩ := List.mem_map.1 (List.mem_of_find?_eq_some hf')
        omega
      have hn2 : R.fl (M * R.fl (1 / (n : ℚ))) ≤ 65500 := by
        have := List.find?_some hf'
        exact of_decide_eq_true this
      refine ⟨n, hn1, ?_, ?_, ?_⟩
      · simp only [browseSize, hMdef, if_pos hM, hf, Option.map_some]
      · intro a ha
        exact le_trans (hmonoA n a (hle a ha)) hn2
      · intro k hk1 hkn
        refine ⟨M, hMin, ?_⟩
        by_contra hc
        push Not at hc
        rw [List.find?_map, Option.map_eq_some_iff] at hf'
        obtain ⟨j, hj, rfl⟩ := hf'
        rw [List.find?_range_eq_some] at hj
        obtain ⟨_, _, hj3⟩ := hj
        have := hj3 (k - 1) (by omega)
        simp only [Function.comp_apply, show k - 1 + 1 = k by omega, Bool.not_eq_true', decide_eq_false_iff_not] at this
        exact this hc
  refine ⟨hsmall, hlarge, ?_⟩
  intro out hout x hx
  by_cases h : ∃ a ∈ axes, 65500 < a
  · obtain ⟨n, _, h1, h2, _⟩ := hlarge h
    rw [h1] at hout
    injection hout with hout
    subst hout
    obtain ⟨a, ha, rfl⟩ := List.mem_map.1 hx
    have h3 := h2 a (hsub a ha)
    have h4 := Int.floor_le (R.fl (a * R.fl (1 / (n : ℚ))))
    have : ((⌊R.fl (a * R.fl (1 / (n : ℚ)))⌋ : Int) : ℚ) ≤ ((65500 : Int) : ℚ) := by push_cast; linarith
    exact_mod_cast this
  · push Not at h
    rw [hsmall h] at hout
    injection hout with hout
    subst hout
    obtain ⟨a, ha, rfl⟩ := List.mem_map.1 hx
    exact_mod_cast h a (hsub a ha)

/-! ### limits -/

/-- **C58 (one value).** If the two bounds are equal, as by default for an image of which all but the lowest and the
highest percent are one value, the image is not normalised: integers are shown by their low eight bits. -/
theorem C58_one_value (R : Rounding double) (pct : List Int → ℚ → Int) (t : IntType) (inplace masked : Bool) (low high : ℚ)
    (px : List (Int × Bool)) (v : Int) (hb : boundsOf pct low high (valid px) = some (v, v)) :
    eightbitInt R pct inplace t masked low high true px = .ok (px.map fun e => (wrap uint8 e.1, e.2)) := by
  unfold eightbitInt eightbit
  simp only [hb, if_true]

/-- **C58 (wide integers).** For signed 32-bit integers the difference of the bounds wraps around: with bounds `2^31` or
more apart, the values above the lowest get smaller and smaller numbers below 0, down to -254 or less. -/
theorem C58_wide (R : Rounding double) (mn mx x : Int) (h1 : lo int32 ≤ mn) (h2 : mx ≤ hi int32) (h : 2 ^ 31 ≤ mx - mn)
    (hx : mn ≤ x) (hx' : x < mn + 2 ^ 31) :
    scaleInt R int32 mn mx x ≤ 0 ∧ (x = mn + 2 ^ 31 - 1 → scaleInt R int32 mn mx x ≤ -254) := by
  have hl : lo int32 = -2147483648 := by decide
  have hh : hi int32 = 2147483647 := by decide
  rw [hl] at h1
  rw [hh] at h2
  norm_num at h hx'
  have hz : R.fl 0 = 0 := R.exact 0 (rep_zero double (by decide))
  have hc : clip mn mx x = x := by unfold clip; omega
  have hw1 : wrap int32 (x - mn) = x - mn := wrap_id _ (by decide) _ (by rw [hl]; omega) (by rw [hh]; omega)
  have hw2 : wrap int32 (mx - mn) = mx - mn - 4294967296 := by
    have : wrap int32 (mx - mn) = wrap int32 (mx - mn - 4294967296) := by
      apply wrap_congr
      have : (2 : Int) ^ int32.bits = 4294967296 := by decide
      rw [this]
      omega
    rw [this]
    exact wrap_id _ (by decide) _ (by rw [hl]; omega) (by rw [hh]; omega)
  have hrepd : R.fl ((mx - mn - 4294967296 : Int) : ℚ) = ((mx - mn - 4294967296 : Int) : ℚ) := by
    apply R.exact
    exact ⟨mx - mn - 4294967296, 0, by norm_num [double, abs_lt]; constructor <;> omega, by norm_num [double], by norm_num [double], by norm_num⟩
  have hrepx : R.fl ((x - mn : Int) : ℚ) = ((x - mn : Int) : ℚ) := by
    apply R.exact
    exact ⟨x - mn, 0, by norm_num [double, abs_lt]; constructor <;> omega, by norm_num [double], by norm_num [double], by norm_num⟩
  have hd : ((mx - mn - 4294967296 : Int) : ℚ) < 0 := by exact_mod_cast (by omega : mx - mn - 4294967296 < 0)
  have hd2 : (-2147483648 : ℚ) ≤ ((mx - mn - 4294967296 : Int) : ℚ) := by
    exact_mod_cast (by omega : (-2147483648 : Int) ≤ mx - mn - 4294967296)
  have hfac : R.fl (255 / ((mx - mn - 4294967296 : Int) : ℚ)) ≤ -255 / 2147483648 := by
    have hle : (255 : ℚ) / ((mx - mn - 4294967296 : Int) : ℚ) ≤ -255 / 2147483648 := by
      rw [div_le_iff_of_neg hd]
      linarith
    have := fl_mono R _ _ hle
    rwa [R.exact (-255 / 2147483648) ⟨-255, -31, by norm_num [double], by norm_num [double], by norm_num [double], by norm_num⟩] at this
  have hxn : (0 : ℚ) ≤ ((x - mn : Int) : ℚ) := by exact_mod_cast (by omega : 0 ≤ x - mn)
  unfold scaleInt
  rw [hc, hw1, hw2, hrepd]
  constructor
  · have h3 : R.fl ((x - mn : Int) : ℚ) * R.fl (255 / ((mx - mn - 4294967296 : Int) : ℚ)) ≤ 0 := by
      rw [hrepx]
      exact mul_nonpos_of_nonneg_of_nonpos hxn (by linarith)
    have h4 := fl_mono R _ _ h3
    rw [hz] at h4
    have h5 := fl_mono R _ 0 (by linarith : R.fl (R.fl ((x - mn : Int) : ℚ) * R.fl (255 / ((mx - mn - 4294967296 : Int) : ℚ))) + 0 ≤ 0)
    rwa [hz] at h5
  · intro he
    have hm : R.fl (-254) = -254 := R.exact _ ⟨-254, 0, by norm_num [double], by norm_num [double], by norm_num [double], by norm_num⟩
    have hxv : ((x - mn : Int) : ℚ) = 2147483647 := by exact_mod_cast (by omega : x - mn = 2147483647)
    have h3 : R.fl ((x - mn : Int) : ℚ) * R.fl (255 / ((mx - mn - 4294967296 : Int) : ℚ)) ≤ -254 := by
      rw [hrepx, hxv]
      linarith
    have h4 := fl_mono R _ _ h3
    rw [hm] at h4
    have h5 := fl_mono R _ (-254) (by linarith : R.fl (R.fl ((x - mn : Int) : ℚ) * R.fl (255 / ((mx - mn - 4294967296 : Int) : ℚ))) + 0 ≤ -254)
    rwa [hm] at h5

/-! ### examples -/

/-- a stand-in for `np.percentile`: the least element -/
def pctMin (l : List Int) (_ : ℚ) : Int := l.foldl min (l.headD 0)

-- a cube of five bands: the middle one, the one asked for (from the end), all of them
example : selectBands 5 .none false none = .ok (.single 2) := by decide +kernel
example : selectBands 5 (.int (-1)) false none = .ok (.single 4) := rfl
example : selectBands 5 (.int 7) false none = .ok (.single 2) := by decide +kernel
example : selectBands 4 .none false none = .ok (.rgb 0 1 2) := rfl
example : selectBands 7 .none false (some (6, -3, 0)) = .ok (.rgb 6 4 0) := rfl
-- an image with one element masked: the bounds are those of the others
example : boundsOf pctMin 0 0 (valid [(10, false), (300, true), (110, false), (60, false)]) = some (10, 110) := by decide
example (R : Rounding double) : eightbitInt R pctMin true int16 true 0 0 true [(10, false), (300, true), (110, false), (60, false)]
    = .ok [(0, false), (255, true), (255, false), (127, false)] := rfl
-- bounds as C58 has them
example : boundsOf pctMin 0 0 (valid [((700 : Int), false), (700, false)]) = some (700, 700) ∧
    wrap uint8 700 = 188 := by decide
example : lo int32 ≤ -2000000000 ∧ (2000000000 : Int) ≤ hi int32 ∧ (2 : Int) ^ 31 ≤ 2000000000 - -2000000000 := by decide

end Verif.Browse
