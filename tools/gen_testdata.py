"""Writes lean/Verif/Model/TestData/*.lean from crates/tofas/src/test_data.rs (the tables of the tests that need no libm)."""
import re
SRC = '/repo/crates/tofas/src/test_data.rs'
OUT = '/verif/lean/Verif/Model/TestData/'
L = open(SRC).read().split('\n')


def lit(s):
    sg, a, b, e = re.fullmatch(r'(-?)(\d+)\.(\d*)(?:[Ee]([+-]?\d+))?', s).groups()
    n, k = int(a + b), len(b) - int(e or 0)
    while k < 0:
        n, k = n * 10, k + 1
    if n == 0:
        k = 0
    return f'⟨{sg}{n}, {k}⟩'


def rows(name, cols):
    i = next(k for k, l in enumerate(L) if f'const {name} ' in l)
    first, out = i + 1, []
    i += 1
    while L[i].strip() != '];':
        if L[i].startswith(' ('):
            v = [x.strip() for x in L[i].strip().strip('(').split(',')]
            v = [x.rstrip(') ') for x in v if x.rstrip(') ')]
            assert len(v) == cols, (i, v)
            out.append([lit(x) for x in v])
        i += 1
    return out, first, i + 1


def write(mod, name, cols, doc, ty):
    r, a, b = rows(name, cols)
    chunks = [r[k:k + 100] for k in range(0, len(r), 100)]
    with open(OUT + mod + '.lean', 'w') as f:
        f.write(f'''import Verif.Model.Epv.Table

/-!
# `{name}` of `crates/tofas/src/test_data.rs` (lines {a}-{b})

{doc} `⟨m, e⟩` is `m * 10^-e`; digits as in the source. Written by tools/gen_testdata.py.
-/

namespace Verif.TestData
open Epv

''')
        for k, c in enumerate(chunks):
            f.write(f'/-- Entries {100*k} to {100*k+len(c)-1}. -/\ndef {mod}_{k} : List ({ty}) := [\n')
            f.write(',\n'.join('  (' + ', '.join(x) + ')' for x in c))
            f.write(']\n\n')
        f.write(f'/-- `{name}`. -/\ndef {name} : List ({ty}) :=\n  ' +
                ' ++ '.join(f'{mod}_{k}' for k in range(len(chunks))) + '\n\nend Verif.TestData\n')


write('Era', 'ERA00_DATA', 3, 'The two parts of a UT1 date and the rotation angle.', 'Dec × Dec × Dec')
write('Pr', 'PR00_DATA', 4, 'The two parts of a TT date and the two precession rates.', 'Dec × Dec × Dec × Dec')
write('C2t', 'C2T00B_DATA', 8, 'The numbers of each entry: the TT date, `dtr`, the TDB date, `dt`, the UT1 date; the matrices are left out.',
      'Dec × Dec × Dec × Dec × Dec × Dec × Dec × Dec')
