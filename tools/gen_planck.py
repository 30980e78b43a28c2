"""Generates lean/Verif/Lemmas/PlanckGrid.lean: base exponentials, the chromaticities of black bodies at 500000/k kelvin
(k = 20..500) in units of 1e-6 (both checked in Props/Planckian.lean by the kernel), and a bound of T * Y'(T)."""
import os, re
from decimal import Decimal as Dc, getcontext
from fractions import Fraction as F
from math import comb
getcontext().prec = 70
here = os.path.dirname(os.path.abspath(__file__))
hpp = open('/repo/include/colorsystem.hpp').read()
def tab(n):
    m = re.search(r'Spectrum ' + n + r'\(\{(.*?)\}\)', hpp, re.S)
    return [F(x.strip().rstrip('f')) for x in m.group(1).split(',') if x.strip()]
X, Y, Z = [tab('CIE1931_' + c) for c in 'XYZ']
X, Y, Z = [[a / sum(t) for a in t] for t in (X, Y, Z)]
XYZ = [[Dc(a.numerator) / Dc(a.denominator) for a in t] for t in (X, Y, Z)]
r = [Dc('28.77553654') / (380 + i) for i in range(400)]
E = [x.exp() for x in r]
out = []
W = out.append
W('''import Verif.Lemmas.Locus

/-!
# Black bodies at 500000/k kelvin, data

Generated by `tools/gen_planck.py`; everything here is checked in `Props/Planckian.lean`.
-/

namespace CS.Planckian
''')
W('/-- `floor (2^64 * exp (28.77553654 / lambda))` for `lambda = 380, ..., 779`. -/')
W('def base : List ℕ := [' + ', '.join(str(int(e * 2**64)) for e in E) + ']\n')
rows = []
P = [e**19 for e in E]
for k in range(20, 501):
    P = [a * e for a, e in zip(P, E)]
    g = [1 / (Dc(380 + i)**5 * (P[i] - 1)) for i in range(400)]
    x, y, z = [sum(a * b for a, b in zip(t, g)) for t in XYZ]
    bits = []
    j = k
    while j: bits.append('true' if j & 1 else 'false'); j //= 2
    rows.append(f"([{', '.join(bits)}], {round(x/(x+y+z)*10**6)}, {round(z/y*10**6)})")
W('/-- For `k = 20, ..., 500`: the bits of `k`, lowest first, and `x` and `Z/Y` of the black body at `500000/k` kelvin, times 10^6. -/')
W('def grid : List (List Bool × ℕ × ℕ) := [\n  ' + ',\n  '.join(rows) + ']\n')
W('end CS.Planckian\n\nnamespace CS.Locus\n')
cy = [F(s) for s in "0.136977825 0.000317653 -0.000000127946 0.0000000000222415 -1.81438E-15 5.67564E-20".split()]
c = [i * cy[i] for i in range(len(cy))]
def bern(c, a, b):
    n = len(c) - 1
    q = [F(0)] * (n + 1)
    for i, co in enumerate(c):
        for k in range(i + 1): q[k] += co * comb(i, k) * F(a)**(i - k) * F(b - a)**k
    return [sum(F(comb(i, k), comb(n, k)) * q[k] for k in range(i + 1)) for i in range(n + 1)]
def lit(q): return f"{q.numerator}" if q.denominator == 1 else f"({q.numerator}/{q.denominator})"
def bernlemma(name, expr, unf, c, a, b, m):
    B = bern(c, a, b); n = len(c) - 1; L = F(b - a)**n
    co = [(B[i] - m) * comb(n, i) / L for i in range(n + 1)]
    terms = " + ".join(f"{lit(co[i])} * s ^ {i} * t ^ {n-i}" for i in range(n + 1))
    W(f"theorem {name} (T : ℝ) (h₁ : {a} ≤ T) (h₂ : T ≤ {b}) : {lit(m)} ≤ {expr} := by")
    W(f"  have key : ∀ s t : ℝ, 0 ≤ s → 0 ≤ t → 0 ≤ {terms} := by\n    intro s t hs ht; positivity")
    W(f"  have h := key (T - {a}) ({b} - T) (by linarith) (by linarith)")
    W(f"  have e : {expr} = {lit(m)} + ({terms.replace('s ^','(T - %d) ^'%a).replace('t ^','(%d - T) ^'%b)}) := by\n    simp only [{unf}]; ring")
    W(f"  linarith\n")
for n, e, cc in (('TY_lo', "T * Y' T", c), ('TY_hi', "-(T * Y' T)", [-x for x in c])):
    m = F('-0.13'); ivs = []; x = 999
    while x < 10000:
        y = 10000
        while min(bern(cc, x, y)) < m: y = x + (y - x) // 2; assert y > x
        ivs.append((x, y)); x = y
    for i, (x, y) in enumerate(ivs): bernlemma(f"{n}_{i}", e, "Y'", cc, x, y, m)
    W(f"theorem {n} (T : ℝ) (h₁ : 999 ≤ T) (h₂ : T ≤ 10000) : {lit(m)} ≤ {e} := by")
    for i, (x, y) in enumerate(ivs[:-1]):
        W(f"  rcases le_total T {y} with h | h\n  · exact {n}_{i} T (by linarith) h")
    W(f"  exact {n}_{len(ivs)-1} T (by linarith) h₂\n")
W('end CS.Locus')
open(os.path.join(here, '..', 'lean', 'Verif', 'Lemmas', 'PlanckGrid.lean'), 'w').write('\n'.join(out) + '\n')
