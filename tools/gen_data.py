#!/usr/bin/env python3
"""Generate Verif/Data/*.lean from the sample tables in /repo/include/colorsystem.hpp.

Each table becomes the list of its 400 decimal literals scaled by a common power of ten."""
import re
from decimal import Decimal
SRC = '/repo/include/colorsystem.hpp'
OUT = '/verif/lean/Verif/Data/'
src = open(SRC).read()
clean = re.sub(r'//[^\n]*', lambda m: ' ' * len(m.group(0)), src)
pat = re.compile(r'static\s+constexpr\s+Spectrum\s+(\w+)\s*\(\{([^}]*)\}\)', re.S)
tabs = {}
for m in pat.finditer(clean):
    vals = [Decimal(v.strip().rstrip('f')) for v in m.group(2).split(',') if v.strip()]
    assert len(vals) == 400, m.group(1)
    assert all(v >= 0 for v in vals)
    sc = max(0, max(-v.as_tuple().exponent for v in vals))
    ints = [int(v.scaleb(sc)) for v in vals]
    assert all(Decimal(i).scaleb(-sc) == v for i, v in zip(ints, vals))
    l0 = src.count('\n', 0, m.start()) + 1
    l1 = src.count('\n', 0, m.end()) + 1
    tabs[m.group(1)] = (sc, ints, l0, l1)

def wrap(ints):
    lines, cur = [], '   '
    for k, i in enumerate(ints):
        w = ' ' + str(i) + (',' if k < len(ints) - 1 else ']')
        if len(cur) + len(w) > 108:
            lines.append(cur); cur = '   '
        cur += w
    lines.append(cur)
    return '\n'.join(lines)

def emit(fname, names, doc, ns, tail=''):
    out = ['import Verif.Data.Table', '', '/-! ' + doc + '  Generated by `tools/gen_data.py`. -/', '',
           'namespace CS.Data.' + ns, '']
    for n in names:
        sc, ints, l0, l1 = tabs[n]
        out.append(f'/-- `{n}` (hpp:{l0}-{l1}). -/')
        out.append(f'def {n} : Table where')
        out.append(f'  scale := {sc}')
        out.append('  m := [')
        out.append(wrap(ints))
        out.append('  len := by decide +kernel')
        out.append('')
    out.append(tail + f'end CS.Data.{ns}')
    open(OUT + fname + '.lean', 'w').write('\n'.join(out) + '\n')

cie = [n for n in tabs if n.startswith('CIE')]
emit('CIE', cie, 'Colour matching functions and the D65 daylight table.', 'CIE')
mac = re.search(r'std::array<Spectrum, 24> Patch\{([^}]*)\}', clean)
macs = [x.strip() for x in mac.group(1).split(',') if x.strip()]
assert len(macs) == 24
ml = src.count('\n', 0, mac.start()) + 1
emit('Macbeth', [n for n in tabs if n.startswith('Macbeth')], 'Colour checker reflectances.', 'Macbeth',
     f'/-- `Macbeth::Patch` (hpp:{ml}-{src.count(chr(10),0,mac.end())+1}), in the order of the header. -/\ndef Patch : List Table := [\n    ' +
     ', '.join(macs[:12]) + ',\n    ' + ', '.join(macs[12:]) + ']\n\n')
ces = re.search(r'std::array<Spectrum, 99> sample\{([^}]*)\}', clean)
cess = [x.strip() for x in ces.group(1).split(',') if x.strip()]
assert len(cess) == 99
names = [n for n in tabs if n.startswith('CES')]
parts = [names[i:i + 25] for i in range(0, 99, 25)]
for k, p in enumerate(parts):
    emit(f'TM30_{k+1}', p, 'IES TM-30-15 colour evaluation samples.', 'TM30')
cl = src.count('\n', 0, ces.start()) + 1
body = ',\n    '.join(', '.join(cess[i:i + 11]) for i in range(0, 99, 11))
open(OUT + 'TM30.lean', 'w').write('\n'.join([f'import Verif.Data.TM30_{k+1}' for k in range(len(parts))]) +
  f'''

/-! IES TM-30-15 colour evaluation samples.  Generated by `tools/gen_data.py`. -/

namespace CS.Data.TM30

/-- `TM_30_15::sample` (hpp:{cl}-{src.count(chr(10),0,ces.end())+1}), in the order of the header. -/
def sample : List Table := [
    {body}]

end CS.Data.TM30
''')
print(len(tabs), 'tables')
