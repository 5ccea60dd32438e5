from fractions import Fraction as F
from collections import defaultdict
def add(a,b,s=1):
    r=defaultdict(F,a)
    for k,v in b.items():
        r[k]+=s*v
        if r[k]==0: del r[k]
    return dict(r)
def mulc(a,k): return {(x,tuple(sorted(m+(k,)))):v for (x,m),v in a.items()}
inp=[{(k,()):F(1)} for k in range(16)]
A=[inp[i] for i in (0,8,4,12,2,10,6,14)]+[add(mulc(inp[1],15),mulc(inp[15],1),-1),add(mulc(inp[9],7),mulc(inp[7],9),-1),add(mulc(inp[5],11),mulc(inp[11],5),-1),add(mulc(inp[13],3),mulc(inp[3],13),-1),
 add(mulc(inp[3],3),mulc(inp[13],13)),add(mulc(inp[11],11),mulc(inp[5],5)),add(mulc(inp[7],7),mulc(inp[9],9)),add(mulc(inp[15],15),mulc(inp[1],1))]
t=A; m=mulc; ng=lambda a:add({},a,-1)
B=t[:4]+[add(m(t[4],14),m(t[7],2),-1),add(m(t[5],6),m(t[6],10),-1),add(m(t[6],6),m(t[5],10)),add(m(t[7],14),m(t[4],2)),
 add(t[8],t[9]),add(t[8],t[9],-1),add(t[11],t[10],-1),add(t[11],t[10]),add(t[12],t[13]),add(t[12],t[13],-1),add(t[15],t[14],-1),add(t[15],t[14])]
o=B
C=[m(add(o[0],o[1]),8),m(add(o[0],o[1],-1),8),add(m(o[2],12),m(o[3],4),-1),add(m(o[3],12),m(o[2],4)),add(o[4],o[5]),add(o[4],o[5],-1),add(o[7],o[6],-1),add(o[7],o[6]),
 o[8],add(m(ng(o[9]),4),m(o[14],12)),add(m(ng(o[10]),12),m(o[13],4),-1),o[11],o[12],add(m(o[13],12),m(o[10],4),-1),add(m(o[14],4),m(o[9],12)),o[15]]
t=C
D=[add(t[0],t[3]),add(t[1],t[2]),add(t[1],t[2],-1),add(t[0],t[3],-1),t[4],m(add(t[6],t[5],-1),8),m(add(t[6],t[5]),8),t[7],add(t[8],t[11]),add(t[9],t[10]),add(t[9],t[10],-1),add(t[8],t[11],-1),
 add(t[15],t[12],-1),add(t[14],t[13],-1),add(t[14],t[13]),add(t[15],t[12])]
o=D
E=[add(o[0],o[7]),add(o[1],o[6]),add(o[2],o[5]),add(o[3],o[4]),add(o[3],o[4],-1),add(o[2],o[5],-1),add(o[1],o[6],-1),add(o[0],o[7],-1),o[8],o[9],
 m(add(o[13],o[10],-1),8),m(add(o[12],o[11],-1),8),m(add(o[12],o[11]),8),m(add(o[13],o[10]),8),o[14],o[15]]
t=E
Fo=[add(t[i],t[15-i]) for i in range(8)]+[add(t[15-i],t[i],-1) for i in range(8,16)]
def red(k):
    k%=64
    if k>32:k=64-k
    s=1
    if k>16: k=32-k;s=-1
    return s,k
def cmul(mono,s,k):
    # multiply monomial by s*c_k
    if k==16: return None
    if k==0: return s,mono
    return s,tuple(sorted(mono+(k,)))
facts=set()
def reduce(p):
    """returns list of (coef,x,restmono,(a,b)) and reduced poly"""
    steps=[]
    p=dict(p)
    while True:
        big=[k for k in p if len(k[1])>=2]
        if not big: break
        k=max(big,key=lambda k:len(k[1]))
        v=p.pop(k); x,mn=k
        # choose pair
        a,b=mn[-1],mn[-2]; rest=mn[:-2]
        facts.add((a,b))
        steps.append((v,x,rest,(a,b)))
        for kk in (a+b,a-b):
            s,j=red(kk)
            r=cmul(rest,s,j)
            if r is None: continue
            p=add(p,{(x,r[1]):v*r[0]/2})
    return steps,p
import math
res=[]
for n in range(16):
    st,p=reduce(Fo[n])
    tgt={}
    for k in range(16):
        s,j=(1,8) if k==0 else red((2*n+1)*k)
        assert j!=16 or True
        if j==16: continue
        tgt=add(tgt,{(k,(j,) if j else ()):F(s)})
    d=add(p,tgt,-1)
    res.append(st)
    print(n,len(st),len(d))
print(sorted(facts),len(facts))
def cs(k):
    s,j=red(k)
    if j==16: return ''
    return ('+ ' if s>0 else '- ')+('1' if j==0 else f'cosine {j}')
out='''/-
The 16-point inverse cosine transform of the MOC decoder computes, in exact arithmetic, the sum of cosines it stands for.
(The combinations of product formulas below were found by a script; the kernel checks them.)
-/
import Verif.Model.MocDct
import Verif.Spec.MocDct
import Mathlib.Tactic.LinearCombination

namespace Verif.Moc
open Verif.Moc.Spec

/-- exact arithmetic -/
def reals : Arith ℝ := ⟨fun x y => x + y, fun x y => x - y, fun x y => x * y, fun x => -x⟩

theorem cosine_zero : cosine 0 = 1 := by simp [cosine]

theorem cosine_sixteen : cosine 16 = 0 := by
  rw [cosine, show ((16 : Nat) : ℝ) * Real.pi / 32 = Real.pi / 2 by push_cast; ring, Real.cos_pi_div_two]

theorem cosine_mul (a b : Nat) (h : b ≤ a) : cosine a * cosine b = (cosine (a + b) + cosine (a - b)) / 2 := by
  have h1 : ((a + b : Nat) : ℝ) * Real.pi / 32 = a * Real.pi / 32 + b * Real.pi / 32 := by push_cast; ring
  have h2 : ((a - b : Nat) : ℝ) * Real.pi / 32 = a * Real.pi / 32 - b * Real.pi / 32 := by rw [Nat.cast_sub h]; ring
  rw [cosine, cosine, cosine, cosine, h1, h2, Real.cos_add, Real.cos_sub]
  ring

theorem cosine_half (k j : Nat) (h : k + j = 32) : cosine k = -cosine j := by
  have h1 : (k : ℝ) * Real.pi / 32 = Real.pi - j * Real.pi / 32 := by
    have : (k : ℝ) = 32 - j := by rw [eq_sub_iff_add_eq]; exact_mod_cast h
    rw [this]
    ring
  rw [cosine, cosine, h1, Real.cos_pi_sub]

theorem cosine_turn (k j m : Nat) (h : k = 64 * m + j) : cosine k = cosine j := by
  have h1 : (k : ℝ) * Real.pi / 32 = j * Real.pi / 32 + m * (2 * Real.pi) := by rw [h]; push_cast; ring
  rw [cosine, cosine, h1, Real.cos_add_nat_mul_two_pi]

theorem cosine_back (k j m : Nat) (h : k + j = 64 * m) : cosine k = cosine j := by
  have h1 : (k : ℝ) * Real.pi / 32 = m * (2 * Real.pi) - j * Real.pi / 32 := by
    have : (k : ℝ) = 64 * m - j := by rw [eq_sub_iff_add_eq]; exact_mod_cast h
    rw [this]
    ring
  rw [cosine, cosine, h1, Real.cos_nat_mul_two_pi_sub]

theorem weight_zero : weight 0 = cosine 8 := by
  rw [weight, if_pos rfl, cosine, show ((8 : Nat) : ℝ) * Real.pi / 32 = Real.pi / 4 by push_cast; ring, Real.cos_pi_div_four]

'''
def foldproof(k):
    """(name of proof lemma) cosine k = ±cosine j"""
    k0=k
    m,r=divmod(k,64)
    if r>32:
        j=64-r; 
        s,jj=red(j)
        if jj==j: return f'cosine_back {k} {j} {m+1} (by norm_num)',None
        return f'cosine_back {k} {j} {m+1} (by norm_num)', f'cosine_half {j} {32-j} (by norm_num)'
    first = f'cosine_turn {k} {r} {m} (by norm_num)' if m else None
    if r>16: return first, f'cosine_half {r} {32-r} (by norm_num)'
    return first,None
for a,b in sorted(facts):
    rw=[f'cosine_mul {a} {b} (by norm_num)']
    for k in (a+b,a-b):
        f,g=foldproof(k)
        if f or g: rw.append(f'show cosine ({a} {"+" if k==a+b else "-"} {b}) = _ from '+(f if f and not g else g if g and not f else 'X'))
    rhs=' '.join([x for x in (cs(a+b),cs(a-b)) if x])
    if rhs.startswith('+ '): rhs=rhs[2:]
    elif rhs.startswith('- '): rhs='-'+rhs[2:]
    out+=f'theorem cos_{a}_{b} : cosine {a} * cosine {b} = ({rhs}) / 2 := by\n  have h := cosine_mul {a} {b} (by norm_num)\n  norm_num only at h\n'
    for k in (a+b,a-b):
        f,g=foldproof(k)
        if f: out+=f'  rw [{f}] at h\n'
        if g: out+=f'  rw [{g}] at h\n'
        if red(k)[1]==16: out+='  rw [cosine_sixteen] at h\n'
        if red(k)[1]==0: out+='  rw [cosine_zero] at h\n'
    out+='  linear_combination h\n\n'
for n in range(16):
    terms=[]
    for k in range(16):
        if k==0: terms.append('x 0 * cosine 8'); continue
        s,j=red((2*n+1)*k)
        c= '1' if j==0 else f'cosine {j}'
        if j==16: continue
        terms.append(('+ ' if s>0 else '- ')+f'x {k} * {c}')
    lc=[]
    for v,x,rest,(a,b) in res[n]:
        lc.append(('+ ' if v>0 else '- ')+(f'{abs(v)} * ' if abs(v)!=1 else '')+f'x {x} * '+''.join(f'cosine {r} * ' for r in rest)+f'cos_{a}_{b}')
    lcs=' '.join(lc)
    if lcs.startswith('+ '): lcs=lcs[2:]
    elif lcs.startswith('- '): lcs='(-1) * '+lcs[2:]
    import textwrap
    # wrap
    def wrapit(s,ind='    '):
        return ('\n'+ind).join(textwrap.wrap(s,120,break_long_words=False,break_on_hyphens=False))
    out+=f'set_option maxHeartbeats 1600000 in\ntheorem line_{n} (x : Nat → ℝ) : dctInv16 reals cosine x {n} =\n    '+wrapit(' '.join(terms))+' := by\n'
    out+='  simp only [dctInv16, dctA, dctB, dctC, dctD, dctE, dctF, reals]\n'
    out+='  '+('linear_combination '+wrapit(lcs) if lcs else 'ring')+'\n\n'
out+='''end Verif.Moc
'''
open('/verif/lean/Verif/Lemmas/MocDctExact.lean','w').write(out)
body=out.rsplit('end Verif.Moc',1)[0]
ms=sorted({(2*n+1)*k for n in range(16) for k in range(1,16)})
names={}
for mm in ms:
    s,j=red(mm)
    if j==mm and s==1: continue
    f,g=foldproof(mm)
    rws=[y for y in (f,g) if y]
    rhs=('-' if s<0 else '')+f'cosine {j}'
    names[mm]=f'fold_{mm}'
    body+=f'theorem fold_{mm} : cosine {mm} = {rhs} := by\n  rw ['+', '.join(rws)+']\n\n'
for n in range(16):
    fs=sorted({names[(2*n+1)*k] for k in range(1,16) if (2*n+1)*k in names}, key=lambda x:int(x[5:]))
    body+=f'theorem exact_{n} (x : Nat → ℝ) : dctInv16 reals cosine x {n} = inverseDct x {n} := by\n  rw [line_{n}, inverseDct]\n'
    body+=f'  simp only [Finset.sum_range_succ, Finset.sum_range_zero, zero_add, weight_zero]\n  norm_num [weight]\n'
    fl=' '.join(f'{f},' for f in fs)
    body+='  try simp only ['+('\n    '.join(textwrap.wrap(fl+' cosine_zero',120)))+']\n  ring\n\n'
body+='''/-- the transform of one line is the sum of cosines -/
theorem dct_exact (x : Nat → ℝ) (n : Nat) (h : n < 16) : dctInv16 reals cosine x n = inverseDct x n := by
  interval_cases n
'''
for n in range(16): body+=f'  · exact exact_{n} x\n'
body+='''
/-- the transform of a square is the double sum of cosines -/
theorem dct_exact_square (x : Nat → ℝ) (i j : Nat) (hi : i < 16) (hj : j < 16) : dctInv16x16 reals cosine x i j = inverseDct2 x i j := by
  rw [dctInv16x16, dct_exact _ _ hi, inverseDct, inverseDct2]
  refine Finset.sum_congr rfl fun u _ => ?_
  rw [dct_exact _ _ hj, inverseDct, Finset.mul_sum, Finset.sum_mul]
  refine Finset.sum_congr rfl fun v _ => ?_
  ring

end Verif.Moc
'''
body=body.replace('import Mathlib.Tactic.LinearCombination\n','import Mathlib.Tactic.LinearCombination\nimport Mathlib.Tactic.IntervalCases\n')
open('/verif/lean/Verif/Lemmas/MocDctExact.lean','w').write(body)
