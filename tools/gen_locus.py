"""Generates lean/Verif/Lemmas/Locus.lean and LocusSlope.lean: Bernstein-form bounds for the polynomials of fromCT."""
from fractions import Fraction as F
import os
from math import comb
cx=[F(s) for s in "0.811973208 -0.00016747 0.00000000331067 0.00000000000690001 -1.39671E-15 1.11951E-19 -3.31672E-24".split()]
cy=[F(s) for s in "0.136977825 0.000317653 -0.000000127946 0.0000000000222415 -1.81438E-15 5.67564E-20".split()]
def bern(c,a,b):
    # p(T)=sum b_i C(n,i) (T-a)^i (b-T)^(n-i)/(b-a)^n
    n=len(c)-1
    # q(s)=p(a+(b-a)s)
    q=[F(0)]*(n+1)
    for i,co in enumerate(c):
        for k in range(i+1): q[k]+=co*comb(i,k)*F(a)**(i-k)*F(b-a)**k
    return [sum(F(comb(i,k),comb(n,k))*q[k] for k in range(i+1)) for i in range(n+1)]
def mul(a,b):
    r=[F(0)]*(len(a)+len(b)-1)
    for i,x in enumerate(a):
        for j,y in enumerate(b): r[i+j]+=x*y
    return r
def d(c): return [i*c[i] for i in range(1,len(c))]
def add(a,b):
    n=max(len(a),len(b)); a=a+[F(0)]*(n-len(a)); b=b+[F(0)]*(n-len(b)); return [x+y for x,y in zip(a,b)]
mx=[-c for c in d(cx)]
E1=[12*c for c in cy]; E1[0]+=3
# u ~ x/(E1-2x): u' sign = x' E1 - x*12y'
mu=add([-c for c in mul(d(cx),E1)], mul(cx,[12*c for c in d(cy)]))
while mu[-1]==0: mu.pop()
def lit(q): return f"{q.numerator}" if q.denominator==1 else f"({q.numerator}/{q.denominator})"
out=[]
W=out.append
W('''import Verif.Arith
import Verif.Model.Tristimulus
import Verif.Props.Yxy
import Mathlib.Analysis.Calculus.Deriv.Mul
import Mathlib.Analysis.Calculus.Deriv.MeanValue
import Mathlib.Tactic.Positivity

/-!
# The polynomials of `fromCT` between 999 K and 10000 K

Bounds and signs of derivatives on an interval `[a, b]` are read off the Bernstein form: a polynomial is
a combination of the products `(T - a)^i (b - T)^(n-i)`, which are nonnegative there.
-/

namespace CS.Locus
open Tristimulus

/-- The `x` polynomial of `fromCT`. -/
noncomputable def X (T : ℝ) : ℝ := blackbody_x_approx T
/-- The `y` polynomial of `fromCT`. -/
noncomputable def Y (T : ℝ) : ℝ := blackbody_y_approx T
''')
def horner(c,v='T'):
    s=lit(c[-1])
    for a in reversed(c[:-1]): s=f"({lit(a)} + {v} * {s})"
    return s
W(f"theorem X_eq (T : ℝ) : X T = {horner(cx)} := by\n  simp only [X, blackbody_x_approx, lit_real]; push_cast; ring\n")
W(f"theorem Y_eq (T : ℝ) : Y T = {horner(cy)} := by\n  simp only [Y, blackbody_y_approx, lit_real]; push_cast; ring\n")
W(f"/-- Derivative of `X`. -/\nnoncomputable def X' (T : ℝ) : ℝ := {horner(d(cx))}\n")
W(f"/-- Derivative of `Y`. -/\nnoncomputable def Y' (T : ℝ) : ℝ := {horner(d(cy))}\n")
W('''theorem horner {f : ℝ → ℝ} {f' c T : ℝ} (h : HasDerivAt f f' T) :
    HasDerivAt (fun T => c + T * f T) (1 * f T + T * f') T :=
  ((hasDerivAt_id' T).mul h).const_add c
''')
for n,k in (('X',6),('Y',5)):
    hs="(hasDerivAt_const T _)"
    for _ in range(k): hs=f"(horner {hs})"
    W(f"theorem has{n} (T : ℝ) : HasDerivAt {n} ({n}' T) T := by\n  have h : {n} = fun T => {horner(cx if n=='X' else cy)} := funext {n}_eq\n  rw [h]\n  refine HasDerivAt.congr_deriv {hs} ?_\n  simp only [{n}']; ring\n")
def bernlemma(name,expr,unf,c,a,b,m):
    # m <= expr on [a,b]
    B=bern(c,a,b); n=len(c)-1; L=F(b-a)**n
    co=[(B[i]-m)*comb(n,i)/L for i in range(n+1)]
    assert min(co)>=0,(name,float(min(B)),float(m))
    terms=" + ".join(f"{lit(co[i])} * s ^ {i} * t ^ {n-i}" for i in range(n+1))
    W(f"theorem {name} (T : ℝ) (h₁ : {a} ≤ T) (h₂ : T ≤ {b}) : {lit(m)} ≤ {expr} := by")
    W(f"  have key : ∀ s t : ℝ, 0 ≤ s → 0 ≤ t → 0 ≤ {terms} := by\n    intro s t hs ht; positivity")
    W(f"  have h := key (T - {a}) ({b} - T) (by linarith) (by linarith)")
    W(f"  have e : {expr} = {lit(m)} + ({terms.replace('s ^','(T - %d) ^'%a).replace('t ^','(%d - T) ^'%b)}) := by\n    simp only [{unf}]; ring")
    W(f"  linarith\n")
neg=lambda c:[-x for x in c]
iv=[(999,2000),(2000,5000),(5000,10000)]
def glue(name,expr,m,ivs,lo=999):
    W(f"theorem {name} (T : ℝ) (h₁ : {lo} ≤ T) (h₂ : T ≤ 10000) : {lit(m)} ≤ {expr} := by")
    for i,(a,b) in enumerate(ivs[:-1]):
        W(f"  rcases le_total T {b} with h | h\n  · exact {name}_{i} T (by linarith) h")
    W(f"  exact {name}_{len(ivs)-1} T (by linarith) h₂\n")
def fam(name,expr,unf,c,m,ivs):
    for i,(a,b) in enumerate(ivs): bernlemma(f"{name}_{i}",expr,unf,c,a,b,m)
    glue(name,expr,m,ivs)
fam("X_lower","X T","X_eq",cx,F('0.27'),[(999,4000),(4000,10000)])
fam("X_upper","-X T","X_eq",neg(cx),F('-0.66'),[(999,4000),(4000,10000)])
fam("Y_lower","Y T","Y_eq",cy,F('0.28'),iv)
fam("Y_upper","-Y T","Y_eq",neg(cy),F('-0.43'),iv)
fam("X'_neg","-X' T","X'",mx,F('0.000001'),[(999,4000),(4000,7000),(7000,10000)])
fam("U'_neg","-(X' T * (12 * Y T + 3) - 12 * X T * Y' T)","X', Y', X_eq, Y_eq",mu,F('0.000001'),[(999,2000),(2000,4000),(4000,7000),(7000,8000),(8000,9000),(9000,10000)])
pz=[-c for c in add(cx,cy)]; pz[0]+=1
zi=[(1030,1300),(1300,2000),(2000,4000),(4000,10000)]
for i,(a,b) in enumerate(zi): bernlemma(f"Z_pos_{i}","1 - X T - Y T","X_eq, Y_eq",pz,a,b,F('0.0001'))
glue("Z_pos","1 - X T - Y T",F('0.0001'),zi,1030)
bernlemma("Z_neg","-(1 - X T - Y T)","X_eq, Y_eq",neg(pz),999,1020,F('0.00009'))
W("end CS.Locus")
open(os.path.join(os.path.dirname(os.path.abspath(__file__)), '..', 'lean', 'Verif', 'Lemmas', 'Locus.lean'), 'w').write("\n".join(out)+"\n")

# how fast u + v falls
out.clear()
W('''import Verif.Lemmas.Locus

/-!
# `u + v` falls along the locus

`U = 4X/D`, `V = 6Y/D` with `D = -2X + 12Y + 3`; the derivative of `U + V` times `D^2` is a polynomial.
-/

namespace CS.Locus
''')
D=add([-2*c for c in cx],E1)
NU=add(mul(d(cx),E1),neg(mul(cx,[12*c for c in d(cy)])))
A3=[-2*c for c in cx]; A3[0]+=3
NV=add(mul(d(cy),A3),mul([2*c for c in d(cx)],cy))
num=neg(add([4*c for c in NU],[6*c for c in NV]))
expr="-(4 * (X' T * (12 * Y T + 3) - 12 * X T * Y' T) + 6 * (Y' T * (3 - 2 * X T) + 2 * X' T * Y T))"
def slope(name,m,ivs,hi):
    c=add(num,[-m*x for x in mul(D,D)])
    while c[-1]==0: c.pop()
    e=f"{expr} - {lit(m)} * (-2 * X T + 12 * Y T + 3) ^ 2"
    for i,(a,b) in enumerate(ivs): bernlemma(f"{name}_{i}",e,"X', Y', X_eq, Y_eq",c,a,b,F(0))
    W(f"theorem {name} (T : ℝ) (h₁ : 999 ≤ T) (h₂ : T ≤ {hi}) : 0 ≤ {e} := by")
    for i,(a,b) in enumerate(ivs[:-1]):
        W(f"  rcases le_total T {b} with h | h\n  · exact {name}_{i} T (by linarith) h")
    W(f"  exact {name}_{len(ivs)-1} T (by linarith) h₂\n")
def split(m,lo,hi):
    c=add(num,[-m*x for x in mul(D,D)])
    while c[-1]==0: c.pop()
    r=[];a=lo
    while a<hi:
        b=hi
        while min(bern(c,a,b))<0:
            b=a+(b-a)//2
            assert b>a
        r.append((a,b)); a=b
    return r
for n,m,hi in (("slope_all",F('5.58e-6'),10000),("slope_mid",F('1.2e-5'),6600),("slope_low",F('2.9e-5'),4000)):
    slope(n,m,split(m,999,hi),hi)
U="X_eq, Y_eq"
DD="-2 * X T + 12 * Y T + 3"
def lin(k,c,b): return add([k*x for x in D],[b*x for x in c])
for n,e,c,a,b,m in (("Xhi","-X T",neg(cx),3999,10000,F('-0.3805')),("Yhi","-Y T",neg(cy),3999,10000,F('-0.378')),
  ("Dhi1",DD,D,3999,10000,F('5.9')),("Dhi2",f"-({DD})",neg(D),3999,10000,F('-6.78')),
  ("Dlo1",DD,D,999,4000,F('5.85')),("Dlo2",f"-({DD})",neg(D),999,4000,F('-7.02')),
  ("Uhi",f"9 / 40 * ({DD}) - 4 * X T",lin(F('0.225'),cx,-4),3999,10000,F(0)),
  ("Vhi",f"67 / 200 * ({DD}) - 6 * Y T",lin(F('0.335'),cy,-6),3999,10000,F(0)),
  ("Ulo",f"447 / 1000 * ({DD}) - 4 * X T",lin(F('0.447'),cx,-4),999,4000,F(0)),
  ("Vlo",f"361 / 1000 * ({DD}) - 6 * Y T",lin(F('0.361'),cy,-6),999,4000,F(0))):
    ivs=[];x=a
    while x<b:
        y=b
        while min(bern(c,x,y))<m: y=x+(y-x)//2; assert y>x
        ivs.append((x,y)); x=y
    for i,(x,y) in enumerate(ivs): bernlemma(f"{n}_{i}",e,U,c,x,y,m)
    W(f"theorem {n} (T : ℝ) (h₁ : {a} ≤ T) (h₂ : T ≤ {b}) : {lit(m)} ≤ {e} := by")
    for i,(x,y) in enumerate(ivs[:-1]):
        W(f"  rcases le_total T {y} with h | h\n  · exact {n}_{i} T (by linarith) h")
    W(f"  exact {n}_{len(ivs)-1} T (by linarith) h₂\n")
W("end CS.Locus")
open(os.path.join(os.path.dirname(os.path.abspath(__file__)), '..', 'lean', 'Verif', 'Lemmas', 'LocusSlope.lean'), 'w').write("\n".join(out)+"\n")
