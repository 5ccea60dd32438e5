/-
How near the table of cosines of the MOC decoder is to the cosines. (The rational bounds were computed by a script; the kernel
checks them.)
-/
import Verif.Lemmas.MocDctExact
import Mathlib.Analysis.SpecialFunctions.Trigonometric.Bounds
import Mathlib.Analysis.Real.Pi.Bounds

namespace Verif.Moc
open Verif.Moc.Spec

theorem cosine_abs (k : Nat) : |cosine k| ≤ 1 := Real.abs_cos_le_one _

/-- from one multiple of the angle to the next -/
theorem cosine_step (k : Nat) (hk : 1 ≤ k) (q1 q p q' e1 e ep e' : ℝ) (h1 : |cosine 1 - q1| ≤ e1) (h : |cosine k - q| ≤ e)
    (hp : |cosine (k - 1) - p| ≤ ep) (hq : |q| ≤ 1) (he : 2 * e1 + 2 * e + ep + |2 * q1 * q - p - q'| ≤ e') :
    |cosine (k + 1) - q'| ≤ e' := by
  have hm := cosine_mul k 1 hk
  have : cosine (k + 1) - q' = 2 * (cosine 1 - q1) * q + 2 * cosine 1 * (cosine k - q) - (cosine (k - 1) - p) + (2 * q1 * q - p - q') := by
    linear_combination (-2) * hm
  rw [this]
  have t1 : |2 * (cosine 1 - q1) * q| ≤ 2 * e1 := by
    rw [abs_mul, abs_mul, abs_two]
    calc 2 * |cosine 1 - q1| * |q| ≤ 2 * |cosine 1 - q1| * 1 := mul_le_mul_of_nonneg_left hq (by positivity)
      _ ≤ 2 * e1 := by linarith
  have t2 : |2 * cosine 1 * (cosine k - q)| ≤ 2 * e := by
    rw [abs_mul, abs_mul, abs_two]
    calc 2 * |cosine 1| * |cosine k - q| ≤ 2 * 1 * |cosine k - q| :=
          mul_le_mul_of_nonneg_right (by linarith [cosine_abs 1]) (abs_nonneg _)
      _ ≤ 2 * e := by linarith
  have a1 := abs_add_le (2 * (cosine 1 - q1) * q + 2 * cosine 1 * (cosine k - q) - (cosine (k - 1) - p)) (2 * q1 * q - p - q')
  have a2 := abs_sub (2 * (cosine 1 - q1) * q + 2 * cosine 1 * (cosine k - q)) (cosine (k - 1) - p)
  have a3 := abs_add_le (2 * (cosine 1 - q1) * q) (2 * cosine 1 * (cosine k - q))
  linarith

set_option exponentiation.threshold 1000 in
theorem near_1 : |cosine 1 - 1322827399670243577784911761655670506 / 2 ^ 120| ≤ 1 / 2 ^ 116 := by
  have h : cosine 1 = √(2 + √(2 + √(2 + √2))) / 2 := by
    rw [← Real.cos_pi_div_thirty_two, cosine, Nat.cast_one, one_mul]
  have l0 : (1879812259125035246445576347481445757 / 2 ^ 120 : ℝ) ≤ √2 := by
    apply Real.le_sqrt_of_sq_le
    norm_num

  have u0 : √2 ≤ (1879812259125035246445576347481445758 / 2 ^ 120 : ℝ) := by
    rw [Real.sqrt_le_left (by positivity)]
    norm_num

  have l1 : (2456093078693365438874753484390415042 / 2 ^ 120 : ℝ) ≤ √(2 + √2) := by
    apply Real.le_sqrt_of_sq_le
    refine le_trans ?_ (add_le_add_right l0 2)
    norm_num
  have u1 : √(2 + √2) ≤ (2456093078693365438874753484390415044 / 2 ^ 120 : ℝ) := by
    rw [Real.sqrt_le_left (by positivity)]
    refine le_trans (add_le_add_right u0 2) ?_
    norm_num
  have l2 : (2607374505131465471827703032763274468 / 2 ^ 120 : ℝ) ≤ √(2 + √(2 + √2)) := by
    apply Real.le_sqrt_of_sq_le
    refine le_trans ?_ (add_le_add_right l1 2)
    norm_num
  have u2 : √(2 + √(2 + √2)) ≤ (2607374505131465471827703032763274469 / 2 ^ 120 : ℝ) := by
    rw [Real.sqrt_le_left (by positivity)]
    refine le_trans (add_le_add_right u1 2) ?_
    norm_num
  have l3 : (2645654799340487155569823523311341011 / 2 ^ 120 : ℝ) ≤ √(2 + √(2 + √(2 + √2))) := by
    apply Real.le_sqrt_of_sq_le
    refine le_trans ?_ (add_le_add_right l2 2)
    norm_num
  have u3 : √(2 + √(2 + √(2 + √2))) ≤ (2645654799340487155569823523311341013 / 2 ^ 120 : ℝ) := by
    rw [Real.sqrt_le_left (by positivity)]
    refine le_trans (add_le_add_right u2 2) ?_
    norm_num
  rw [h, abs_le]
  constructor <;> norm_num at l3 u3 ⊢ <;> linarith

set_option exponentiation.threshold 1000 in
theorem near_0 : |cosine 0 - 1329227995784915872903807060280344576 / 2 ^ 120| ≤ 0 := by
  rw [cosine_zero]
  norm_num

set_option exponentiation.threshold 1000 in
theorem near_2 : |cosine 2 - 1303687252565732735913851516381637234 / 2 ^ 120| ≤ 65 / 2 ^ 120 := by
  refine cosine_step 1 (by norm_num) _ _ _ _ _ _ _ _ near_1 near_1 near_0 ?_ ?_
  · rw [abs_of_nonneg (by positivity)]
    norm_num
  · rw [show |(2 : ℝ) * (1322827399670243577784911761655670506 / 2 ^ 120) * (1322827399670243577784911761655670506 / 2 ^ 120) - 1329227995784915872903807060280344576 / 2 ^ 120 - 1303687252565732735913851516381637234 / 2 ^ 120| = 586956082805260988404046503032429512 / 2 ^ 240 by
      rw [abs_of_nonneg (by norm_num)]
      norm_num]
    norm_num

set_option exponentiation.threshold 1000 in
theorem near_3 : |cosine 3 - 1271991884551068505397945340445046553 / 2 ^ 120| ≤ 179 / 2 ^ 120 := by
  refine cosine_step 2 (by norm_num) _ _ _ _ _ _ _ _ near_1 near_2 near_1 ?_ ?_
  · rw [abs_of_nonneg (by positivity)]
    norm_num
  · rw [show |(2 : ℝ) * (1322827399670243577784911761655670506 / 2 ^ 120) * (1303687252565732735913851516381637234 / 2 ^ 120) - 1322827399670243577784911761655670506 / 2 ^ 120 - 1271991884551068505397945340445046553 / 2 ^ 120| = 704684969032450874629801876550881176 / 2 ^ 240 by
      rw [abs_of_neg (by norm_num)]
      norm_num]
    norm_num

set_option exponentiation.threshold 1000 in
theorem near_4 : |cosine 4 - 1228046539346682719437376742195207522 / 2 ^ 120| ≤ 456 / 2 ^ 120 := by
  refine cosine_step 3 (by norm_num) _ _ _ _ _ _ _ _ near_1 near_3 near_2 ?_ ?_
  · rw [abs_of_nonneg (by positivity)]
    norm_num
  · rw [show |(2 : ℝ) * (1322827399670243577784911761655670506 / 2 ^ 120) * (1271991884551068505397945340445046553 / 2 ^ 120) - 1303687252565732735913851516381637234 / 2 ^ 120 - 1228046539346682719437376742195207522 / 2 ^ 120| = 354473726275369202517590276659488180 / 2 ^ 240 by
      rw [abs_of_nonneg (by norm_num)]
      norm_num]
    norm_num

set_option exponentiation.threshold 1000 in
theorem near_5 : |cosine 5 - 1172274434649862936731671497047772248 / 2 ^ 120| ≤ 1124 / 2 ^ 120 := by
  refine cosine_step 4 (by norm_num) _ _ _ _ _ _ _ _ near_1 near_4 near_3 ?_ ?_
  · rw [abs_of_nonneg (by positivity)]
    norm_num
  · rw [show |(2 : ℝ) * (1322827399670243577784911761655670506 / 2 ^ 120) * (1228046539346682719437376742195207522 / 2 ^ 120) - 1271991884551068505397945340445046553 / 2 ^ 120 - 1172274434649862936731671497047772248 / 2 ^ 120| = 1251446276934172986448538767638318888 / 2 ^ 240 by
      rw [abs_of_nonneg (by norm_num)]
      norm_num]
    norm_num

set_option exponentiation.threshold 1000 in
theorem near_6 : |cosine 6 - 1105212686316973235412479860799096894 / 2 ^ 120| ≤ 2737 / 2 ^ 120 := by
  refine cosine_step 5 (by norm_num) _ _ _ _ _ _ _ _ near_1 near_5 near_4 ?_ ?_
  · rw [abs_of_nonneg (by positivity)]
    norm_num
  · rw [show |(2 : ℝ) * (1322827399670243577784911761655670506 / 2 ^ 120) * (1172274434649862936731671497047772248 / 2 ^ 120) - 1228046539346682719437376742195207522 / 2 ^ 120 - 1105212686316973235412479860799096894 / 2 ^ 120| = 128877392444967717997817433880612640 / 2 ^ 240 by
      rw [abs_of_neg (by norm_num)]
      norm_num]
    norm_num

set_option exponentiation.threshold 1000 in
theorem near_7 : |cosine 7 - 1027507135644140032896055286342772530 / 2 ^ 120| ≤ 6631 / 2 ^ 120 := by
  refine cosine_step 6 (by norm_num) _ _ _ _ _ _ _ _ near_1 near_6 near_5 ?_ ?_
  · rw [abs_of_nonneg (by positivity)]
    norm_num
  · rw [show |(2 : ℝ) * (1322827399670243577784911761655670506 / 2 ^ 120) * (1105212686316973235412479860799096894 / 2 ^ 120) - 1172274434649862936731671497047772248 / 2 ^ 120 - 1027507135644140032896055286342772530 / 2 ^ 120| = 300608711076684191887751280533407400 / 2 ^ 240 by
      rw [abs_of_neg (by norm_num)]
      norm_num]
    norm_num

set_option exponentiation.threshold 1000 in
theorem near_8 : |cosine 8 - 939906129562517623222788173740722879 / 2 ^ 120| ≤ 16032 / 2 ^ 120 := by
  refine cosine_step 7 (by norm_num) _ _ _ _ _ _ _ _ near_1 near_7 near_6 ?_ ?_
  · rw [abs_of_nonneg (by positivity)]
    norm_num
  · rw [show |(2 : ℝ) * (1322827399670243577784911761655670506 / 2 ^ 120) * (1027507135644140032896055286342772530 / 2 ^ 120) - 1105212686316973235412479860799096894 / 2 ^ 120 - 939906129562517623222788173740722879 / 2 ^ 120| = 929802647986494451464284741002100888 / 2 ^ 240 by
      rw [abs_of_neg (by norm_num)]
      norm_num]
    norm_num

set_option exponentiation.threshold 1000 in
theorem near_9 : |cosine 9 - 843253313648253115886949368180611619 / 2 ^ 120| ≤ 38729 / 2 ^ 120 := by
  refine cosine_step 8 (by norm_num) _ _ _ _ _ _ _ _ near_1 near_8 near_7 ?_ ?_
  · rw [abs_of_nonneg (by positivity)]
    norm_num
  · rw [show |(2 : ℝ) * (1322827399670243577784911761655670506 / 2 ^ 120) * (939906129562517623222788173740722879 / 2 ^ 120) - 1027507135644140032896055286342772530 / 2 ^ 120 - 843253313648253115886949368180611619 / 2 ^ 120| = 2081976346044526803115874652422887724 / 2 ^ 240 by
      rw [abs_of_nonneg (by norm_num)]
      norm_num]
    norm_num

set_option exponentiation.threshold 1000 in
theorem near_10 : |cosine 10 - 738479507354404555302404965860898120 / 2 ^ 120| ≤ 93523 / 2 ^ 120 := by
  refine cosine_step 9 (by norm_num) _ _ _ _ _ _ _ _ near_1 near_9 near_8 ?_ ?_
  · rw [abs_of_nonneg (by positivity)]
    norm_num
  · rw [show |(2 : ℝ) * (1322827399670243577784911761655670506 / 2 ^ 120) * (843253313648253115886949368180611619 / 2 ^ 120) - 939906129562517623222788173740722879 / 2 ^ 120 - 738479507354404555302404965860898120 / 2 ^ 120| = 659702673697798098464752230638932996 / 2 ^ 240 by
      rw [abs_of_neg (by norm_num)]
      norm_num]
    norm_num

set_option exponentiation.threshold 1000 in
theorem near_11 : |cosine 11 - 626593739710770299435105923947890056 / 2 ^ 120| ≤ 225808 / 2 ^ 120 := by
  refine cosine_step 10 (by norm_num) _ _ _ _ _ _ _ _ near_1 near_10 near_9 ?_ ?_
  · rw [abs_of_nonneg (by positivity)]
    norm_num
  · rw [show |(2 : ℝ) * (1322827399670243577784911761655670506 / 2 ^ 120) * (738479507354404555302404965860898120 / 2 ^ 120) - 843253313648253115886949368180611619 / 2 ^ 120 - 626593739710770299435105923947890056 / 2 ^ 120| = 1157246103616260312619712207683467360 / 2 ^ 240 by
      rw [abs_of_neg (by norm_num)]
      norm_num]
    norm_num

set_option exponentiation.threshold 1000 in
theorem near_12 : |cosine 12 - 508673531822740685630297997568868078 / 2 ^ 120| ≤ 545173 / 2 ^ 120 := by
  refine cosine_step 11 (by norm_num) _ _ _ _ _ _ _ _ near_1 near_11 near_10 ?_ ?_
  · rw [abs_of_nonneg (by positivity)]
    norm_num
  · rw [show |(2 : ℝ) * (1322827399670243577784911761655670506 / 2 ^ 120) * (626593739710770299435105923947890056 / 2 ^ 120) - 738479507354404555302404965860898120 / 2 ^ 120 - 508673531822740685630297997568868078 / 2 ^ 120| = 1932356826458320750097299222742334624 / 2 ^ 240 by
      rw [abs_of_nonneg (by norm_num)]
      norm_num]
    norm_num

set_option exponentiation.threshold 1000 in
theorem near_13 : |cosine 13 - 385854519754020168573795117120173564 / 2 ^ 120| ≤ 1316187 / 2 ^ 120 := by
  refine cosine_step 12 (by norm_num) _ _ _ _ _ _ _ _ near_1 near_12 near_11 ?_ ?_
  · rw [abs_of_nonneg (by positivity)]
    norm_num
  · rw [show |(2 : ℝ) * (1322827399670243577784911761655670506 / 2 ^ 120) * (508673531822740685630297997568868078 / 2 ^ 120) - 626593739710770299435105923947890056 / 2 ^ 120 - 385854519754020168573795117120173564 / 2 ^ 120| = 1255807141444452637116478361590910184 / 2 ^ 240 by
      rw [abs_of_neg (by norm_num)]
      norm_num]
    norm_num

set_option exponentiation.threshold 1000 in
theorem near_14 : |cosine 14 - 259319517730532025535172787767079734 / 2 ^ 120| ≤ 3177580 / 2 ^ 120 := by
  refine cosine_step 13 (by norm_num) _ _ _ _ _ _ _ _ near_1 near_13 near_12 ?_ ?_
  · rw [abs_of_nonneg (by positivity)]
    norm_num
  · rw [show |(2 : ℝ) * (1322827399670243577784911761655670506 / 2 ^ 120) * (385854519754020168573795117120173564 / 2 ^ 120) - 508673531822740685630297997568868078 / 2 ^ 120 - 259319517730532025535172787767079734 / 2 ^ 120| = 1188897993945460761622253308118139056 / 2 ^ 240 by
      rw [abs_of_nonneg (by norm_num)]
      norm_num]
    norm_num

set_option exponentiation.threshold 1000 in
theorem near_15 : |cosine 15 - 130287126992830687481049581775058926 / 2 ^ 120| ≤ 7671380 / 2 ^ 120 := by
  refine cosine_step 14 (by norm_num) _ _ _ _ _ _ _ _ near_1 near_14 near_13 ?_ ?_
  · rw [abs_of_nonneg (by positivity)]
    norm_num
  · rw [show |(2 : ℝ) * (1322827399670243577784911761655670506 / 2 ^ 120) * (259319517730532025535172787767079734 / 2 ^ 120) - 385854519754020168573795117120173564 / 2 ^ 120 - 130287126992830687481049581775058926 / 2 ^ 120| = 32757315416583089872964314162223432 / 2 ^ 240 by
      rw [abs_of_neg (by norm_num)]
      norm_num]
    norm_num

set_option exponentiation.threshold 1000 in
/-- the table is the cosines to 53 bits -/
theorem cosine_table (k : Nat) (hk : k < 16) : |((cosineDouble k : ℚ) : ℝ) - cosine k| ≤ 1 / 2 ^ 53 := by
  have tri : ∀ (c q t e : ℝ), |c - q| ≤ e → |t - q| + e ≤ 1 / 2 ^ 53 → |t - c| ≤ 1 / 2 ^ 53 := by
    intro c q t e h1 h2
    have := abs_sub_le t q c
    rw [abs_sub_comm q c] at this
    linarith
  interval_cases k
  · refine tri _ _ _ _ near_0 ?_
    rw [show ((cosineDouble 0 : ℚ) : ℝ) - 1329227995784915872903807060280344576 / 2 ^ 120 = 0 / 2 ^ 120 by
      rw [show cosineDouble 0 = 1152921504606846976 / 2 ^ 60 by simp [cosineDouble, cosine60]]
      push_cast
      norm_num]
    rw [abs_of_nonneg (by norm_num)]
    norm_num
  · refine tri _ _ _ _ near_1 ?_
    rw [show ((cosineDouble 1 : ℚ) : ℝ) - 1322827399670243577784911761655670506 / 2 ^ 120 = 56474795115699296534 / 2 ^ 120 by
      rw [show cosineDouble 1 = 1147369872436663040 / 2 ^ 60 by simp [cosineDouble, cosine60]]
      push_cast
      norm_num]
    rw [abs_of_nonneg (by norm_num)]
    norm_num
  · refine tri _ _ _ _ near_2 ?_
    rw [show ((cosineDouble 2 : ℚ) : ℝ) - 1303687252565732735913851516381637234 / 2 ^ 120 = -24653111881252022898 / 2 ^ 120 by
      rw [show cosineDouble 2 = 1130768441178740736 / 2 ^ 60 by simp [cosineDouble, cosine60]]
      push_cast
      norm_num]
    rw [abs_of_neg (by norm_num)]
    norm_num
  · refine tri _ _ _ _ near_3 ?_
    rw [show ((cosineDouble 3 : ℚ) : ℝ) - 1271991884551068505397945340445046553 / 2 ^ 120 = -53905339157823338265 / 2 ^ 120 by
      rw [show cosineDouble 3 = 1103277091691359488 / 2 ^ 60 by simp [cosineDouble, cosine60]]
      push_cast
      norm_num]
    rw [abs_of_neg (by norm_num)]
    norm_num
  · refine tri _ _ _ _ near_4 ?_
    rw [show ((cosineDouble 4 : ℚ) : ℝ) - 1228046539346682719437376742195207522 / 2 ^ 120 = -23454290571443314018 / 2 ^ 120 by
      rw [show cosineDouble 4 = 1065160580698383104 / 2 ^ 60 by simp [cosineDouble, cosine60]]
      push_cast
      norm_num]
    rw [abs_of_neg (by norm_num)]
    norm_num
  · refine tri _ _ _ _ near_5 ?_
    rw [show ((cosineDouble 5 : ℚ) : ℝ) - 1172274434649862936731671497047772248 / 2 ^ 120 = 26376201308424139688 / 2 ^ 120 by
      rw [show cosineDouble 5 = 1016785991037278336 / 2 ^ 60 by simp [cosineDouble, cosine60]]
      push_cast
      norm_num]
    rw [abs_of_nonneg (by norm_num)]
    norm_num
  · refine tri _ _ _ _ near_6 ?_
    rw [show ((cosineDouble 6 : ℚ) : ℝ) - 1105212686316973235412479860799096894 / 2 ^ 120 = -1870736471277357118 / 2 ^ 120 by
      rw [show cosineDouble 6 = 958619196450722176 / 2 ^ 60 by simp [cosineDouble, cosine60]]
      push_cast
      norm_num]
    rw [abs_of_neg (by norm_num)]
    norm_num
  · refine tri _ _ _ _ near_7 ?_
    rw [show ((cosineDouble 7 : ℚ) : ℝ) - 1027507135644140032896055286342772530 / 2 ^ 120 = 43287515337256179918 / 2 ^ 120 by
      rw [show cosineDouble 7 = 891220374967787648 / 2 ^ 60 by simp [cosineDouble, cosine60]]
      push_cast
      norm_num]
    rw [abs_of_nonneg (by norm_num)]
    norm_num
  · refine tri _ _ _ _ near_8 ?_
    rw [show ((cosineDouble 8 : ℚ) : ℝ) - 939906129562517623222788173740722879 / 2 ^ 120 = 64250184578529670465 / 2 ^ 120 by
      rw [show cosineDouble 8 = 815238614083298944 / 2 ^ 60 by simp [cosineDouble, cosine60]]
      push_cast
      norm_num]
    rw [abs_of_nonneg (by norm_num)]
    norm_num
  · refine tri _ _ _ _ near_9 ?_
    rw [show ((cosineDouble 9 : ℚ) : ℝ) - 843253313648253115886949368180611619 / 2 ^ 120 = -13851754585728064035 / 2 ^ 120 by
      rw [show cosineDouble 9 = 731405659690429184 / 2 ^ 60 by simp [cosineDouble, cosine60]]
      push_cast
      norm_num]
    rw [abs_of_neg (by norm_num)]
    norm_num
  · refine tri _ _ _ _ near_10 ?_
    rw [show ((cosineDouble 10 : ℚ) : ℝ) - 738479507354404555302404965860898120 / 2 ^ 120 = -62598808658503529800 / 2 ^ 120 by
      rw [show cosineDouble 10 = 640528868967736320 / 2 ^ 60 by simp [cosineDouble, cosine60]]
      push_cast
      norm_num]
    rw [abs_of_neg (by norm_num)]
    norm_num
  · refine tri _ _ _ _ near_11 ?_
    rw [show ((cosineDouble 11 : ℚ) : ℝ) - 626593739710770299435105923947890056 / 2 ^ 120 = -8662151017982395784 / 2 ^ 120 by
      rw [show cosineDouble 11 = 543483435088187072 / 2 ^ 60 by simp [cosineDouble, cosine60]]
      push_cast
      norm_num]
    rw [abs_of_neg (by norm_num)]
    norm_num
  · refine tri _ _ _ _ near_12 ?_
    rw [show ((cosineDouble 12 : ℚ) : ℝ) - 508673531822740685630297997568868078 / 2 ^ 120 = 13359768447407390994 / 2 ^ 120 by
      rw [show cosineDouble 12 = 441203958630471872 / 2 ^ 60 by simp [cosineDouble, cosine60]]
      push_cast
      norm_num]
    rw [abs_of_nonneg (by norm_num)]
    norm_num
  · refine tri _ _ _ _ near_13 ?_
    rw [show ((cosineDouble 13 : ℚ) : ℝ) - 385854519754020168573795117120173564 / 2 ^ 120 = 25159599201994328580 / 2 ^ 120 by
      rw [show cosineDouble 13 = 334675446864527744 / 2 ^ 60 by simp [cosineDouble, cosine60]]
      push_cast
      norm_num]
    rw [abs_of_nonneg (by norm_num)]
    norm_num
  · refine tri _ _ _ _ near_14 ?_
    rw [show ((cosineDouble 14 : ℚ) : ℝ) - 259319517730532025535172787767079734 / 2 ^ 120 = 10621966014330178762 / 2 ^ 120 by
      rw [show cosineDouble 14 = 224923827593068896 / 2 ^ 60 by simp [cosineDouble, cosine60]]
      push_cast
      norm_num]
    rw [abs_of_nonneg (by norm_num)]
    norm_num
  · refine tri _ _ _ _ near_15 ?_
    rw [show ((cosineDouble 15 : ℚ) : ℝ) - 130287126992830687481049581775058926 / 2 ^ 120 = 2172732637311305746 / 2 ^ 120 by
      rw [show cosineDouble 15 = 113006068906017472 / 2 ^ 60 by simp [cosineDouble, cosine60]]
      push_cast
      norm_num]
    rw [abs_of_nonneg (by norm_num)]
    norm_num

end Verif.Moc
