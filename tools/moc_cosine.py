from decimal import *
getcontext().prec=80
pi=Decimal('3.14159265358979323846264338327950288419716939937510582097494459230781640628620899862803482534211706798')
def cos(x):
    r=Decimal(1);term=Decimal(1);n=0
    while abs(term)>Decimal(10)**-70:
        n+=2; term*=-x*x/(n*(n-1)); r+=term
    return r
S=2**120
out='''/-
How near the table of cosines of the MOC decoder is to the cosines. (The rational bounds were computed by a script; the kernel
checks them.)
-/
import Verif.Lemmas.MocDctExact
import Mathlib.Analysis.SpecialFunctions.Trigonometric.Bounds
import Mathlib.Analysis.Real.Pi.Bounds

namespace Verif.Moc
open Verif.Moc.Spec

theorem cosine_abs (k : Nat) : |cosine k| ≤ 1 := Real.abs_cos_le_one _

/-- from one multiple of the angle to the next -/
theorem cosine_step (k : Nat) (hk : 1 ≤ k) (q1 q p q' e1 e ep e' : ℝ) (h1 : |cosine 1 - q1| ≤ e1) (h : |cosine k - q| ≤ e)
    (hp : |cosine (k - 1) - p| ≤ ep) (hq : |q| ≤ 1) (he : 2 * e1 + 2 * e + ep + |2 * q1 * q - p - q'| ≤ e') :
    |cosine (k + 1) - q'| ≤ e' := by
  have hm := cosine_mul k 1 hk
  have : cosine (k + 1) - q' = 2 * (cosine 1 - q1) * q + 2 * cosine 1 * (cosine k - q) - (cosine (k - 1) - p) + (2 * q1 * q - p - q') := by
    linear_combination (-2) * hm
  rw [this]
  have t1 : |2 * (cosine 1 - q1) * q| ≤ 2 * e1 := by
    rw [abs_mul, abs_mul, abs_two]
    calc 2 * |cosine 1 - q1| * |q| ≤ 2 * |cosine 1 - q1| * 1 := mul_le_mul_of_nonneg_left hq (by positivity)
      _ ≤ 2 * e1 := by linarith
  have t2 : |2 * cosine 1 * (cosine k - q)| ≤ 2 * e := by
    rw [abs_mul, abs_mul, abs_two]
    calc 2 * |cosine 1| * |cosine k - q| ≤ 2 * 1 * |cosine k - q| :=
          mul_le_mul_of_nonneg_right (by linarith [cosine_abs 1]) (abs_nonneg _)
      _ ≤ 2 * e := by linarith
  have a1 := abs_add_le (2 * (cosine 1 - q1) * q + 2 * cosine 1 * (cosine k - q) - (cosine (k - 1) - p)) (2 * q1 * q - p - q')
  have a2 := abs_sub (2 * (cosine 1 - q1) * q + 2 * cosine 1 * (cosine k - q)) (cosine (k - 1) - p)
  have a3 := abs_add_le (2 * (cosine 1 - q1) * q) (2 * cosine 1 * (cosine k - q))
  linarith

'''
def R(k): return int((cos(pi*k/32)*S).to_integral_value())
# sqrt bounds
import math
def sq(lo,hi):
    # bounds of sqrt(2+x) for x in [lo,hi]/S
    l=math.isqrt((2*S+lo)*S); h=math.isqrt((2*S+hi)*S)+1
    return l,h
b=[(math.isqrt(2*S*S),math.isqrt(2*S*S)+1)]
for _ in range(3): b.append(sq(*b[-1]))
q1=R(1)
E=[None]*16
out+=f'''set_option exponentiation.threshold 1000 in
theorem near_1 : |cosine 1 - {q1} / 2 ^ 120| ≤ 1 / 2 ^ 116 := by
  have h : cosine 1 = √(2 + √(2 + √(2 + √2))) / 2 := by
    rw [← Real.cos_pi_div_thirty_two, cosine, Nat.cast_one, one_mul]
'''
names=['√2','√(2 + √2)','√(2 + √(2 + √2))','√(2 + √(2 + √(2 + √2)))']
for i in range(4):
    l,h=b[i]
    prev=f', l{i-1}' if i else ''
    out+=f'''  have l{i} : ({l} / 2 ^ 120 : ℝ) ≤ {names[i]} := by
    apply Real.le_sqrt_of_sq_le
    {"norm_num" if i==0 else f"refine le_trans ?_ (add_le_add_right l{i-1} 2)"}
{"" if i==0 else "    norm_num"}
  have u{i} : {names[i]} ≤ ({h} / 2 ^ 120 : ℝ) := by
    rw [Real.sqrt_le_left (by positivity)]
    {"norm_num" if i==0 else f"refine le_trans (add_le_add_right u{i-1} 2) ?_"}
{"" if i==0 else "    norm_num"}
'''
out+='''  rw [h, abs_le]
  constructor <;> norm_num at l3 u3 ⊢ <;> linarith

set_option exponentiation.threshold 1000 in
theorem near_0 : |cosine 0 - 1329227995784915872903807060280344576 / 2 ^ 120| ≤ 0 := by
  rw [cosine_zero]
  norm_num

'''
def ratio(e): return e
es=[0,16]  # in units 2^-120
for k in range(1,15):
    d=abs(2*q1*R(k)-R(k-1)*S-R(k+1)*S)
    dd=d//S+1
    e=2*16+2*es[k]+es[k-1]+dd
    es.append(e)
    ek='1 / 2 ^ 116' if k==1 else f'{es[k]} / 2 ^ 120'
    ep='0' if k==1 else ('1 / 2 ^ 116' if k==2 else f'{es[k-1]} / 2 ^ 120')
    out+=f'''set_option exponentiation.threshold 1000 in
theorem near_{k+1} : |cosine {k+1} - {R(k+1)} / 2 ^ 120| ≤ {e} / 2 ^ 120 := by
  refine cosine_step {k} (by norm_num) _ _ _ _ _ _ _ _ near_1 near_{k} near_{k-1} ?_ ?_
  · rw [abs_of_nonneg (by positivity)]
    norm_num
  · rw [show |(2 : ℝ) * ({q1} / 2 ^ 120) * ({R(k)} / 2 ^ 120) - {R(k-1)} / 2 ^ 120 - {R(k+1)} / 2 ^ 120| = {d} / 2 ^ 240 by
      rw [{"abs_of_nonneg" if 2*q1*R(k)-R(k-1)*S-R(k+1)*S>=0 else "abs_of_neg"} (by norm_num)]
      norm_num]
    norm_num

'''
out+='''set_option exponentiation.threshold 1000 in
/-- the table is the cosines to 53 bits -/
theorem cosine_table (k : Nat) (hk : k < 16) : |((cosineDouble k : ℚ) : ℝ) - cosine k| ≤ 1 / 2 ^ 53 := by
  have tri : ∀ (c q t e : ℝ), |c - q| ≤ e → |t - q| + e ≤ 1 / 2 ^ 53 → |t - c| ≤ 1 / 2 ^ 53 := by
    intro c q t e h1 h2
    have := abs_sub_le t q c
    rw [abs_sub_comm q c] at this
    linarith
  interval_cases k
'''
import re
s=open('/verif/lean/Verif/Model/MocTables.lean').read()
i=s.index('cosine60'); t=list(map(int,re.findall(r'-?\d+',s[i:].split('[',1)[1].split(']')[0])))
for k in range(16):
    d=t[k]*2**60-R(k)
    out+=f'''  · refine tri _ _ _ _ near_{k} ?_
    rw [show ((cosineDouble {k} : ℚ) : ℝ) - {R(k)} / 2 ^ 120 = {d} / 2 ^ 120 by
      rw [show cosineDouble {k} = {t[k]} / 2 ^ 60 by simp [cosineDouble, cosine60]]
      push_cast
      norm_num]
    rw [{"abs_of_nonneg" if d>=0 else "abs_of_neg"} (by norm_num)]
    norm_num
'''
out+='''
end Verif.Moc
'''
open('/verif/lean/Verif/Lemmas/MocCosine.lean','w').write(out)
