#!/usr/bin/env python3
"""Transcribes the constexpr element tables of /repo/cafes/fem/matElem.hpp into Lean (exact rationals)."""
import re
from fractions import Fraction
src = open('/repo/cafes/fem/matElem.hpp').read()
def tables():
    for m in re.finditer(r'constexpr (array_\w+) (\w+)\s*\{(.*?)\};', src, re.S):
        kind, name, body = m.groups()
        l0 = src[:m.start()].count('\n') + 1
        l1 = src[:m.end()].count('\n') + 1
        nums = [x.strip() for x in body.replace('{', '').replace('}', '').split(',')]
        yield kind, name, nums, l0, l1
def lean(x):
    x = x.replace(' ', '')
    if '/' in x:
        a, b = x.split('/')
        f = Fraction(int(a.rstrip('.')), int(b))
        s = f"{abs(int(a.rstrip('.')))}/{b}"
    else:
        f = Fraction(x); s = f"{abs(f.numerator)}/{f.denominator}"
    return ('-' if f < 0 else '') + s
dims = {'array_2d': (4, 4), 'array_2d_p': (4, 9), 'array_3d': (8, 8), 'array_3d_p': (8, 27)}
out = ["/-", "Element tables of cafes/fem/matElem.hpp:42-332, transcribed by tools/gen_tables.py.",
       "Every `double` literal quotient is kept as the exact rational it denotes.", "-/",
       "import Mathlib.Data.Rat.Defs", "import Mathlib.Data.Fin.VecNotation", "", "namespace Cafes", ""]
for kind, name, nums, l0, l1 in tables():
    r, c = dims[kind]
    assert len(nums) == r * c, (name, len(nums))
    out.append(f"/-- `{name}` (cafes/fem/matElem.hpp:{l0}-{l1}). -/")
    out.append(f"def {name} : Fin {r} → Fin {c} → ℚ :=")
    rows = []
    for i in range(r):
        row = [lean(x) for x in nums[i*c:(i+1)*c]]
        lines, cur = [], ''
        for k, x in enumerate(row):
            t = x + (', ' if k < c-1 else '')
            if len(cur) + len(t) > 88: lines.append(cur.rstrip()); cur = ''
            cur += t
        lines.append(cur)
        rows.append('![' + '\n      '.join(lines) + ']')
    out.append('  ![' + ',\n    '.join(rows) + ']')
    out.append('')
out.append("end Cafes")
open('/verif/lean/Verif/Model/Tables.lean', 'w').write('\n'.join(out) + '\n')
