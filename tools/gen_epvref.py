#!/usr/bin/env python3
"""Writes lean/Verif/Spec/EpvRef.lean: the DATA statements of /repo/fortran/epv00.for, digit for digit."""
import re, os
ROOT = os.path.dirname(os.path.dirname(os.path.abspath(__file__)))
src = open('/repo/fortran/epv00.for').read()
P = {m.group(1): int(m.group(2)) for m in re.finditer(r'\b(N[ES][012][XYZ])\s*=\s*(\d+)', src)}
F = {}
for m in re.finditer(r'DATA \(\(([ES][012])\(I,J,(\d)\),I=1,3\),J=\s*(\d+),\s*(\w+)\)\s*/(.*?)/', src, re.S):
    nm, k, a, b, body = m.groups()
    k = int(k) - 1; a = int(a); b = P[b] if b in P else int(b)
    nums = re.findall(r'([-+]?)(\d+)\.(\d+)D([-+]\d+)', body)
    assert len(nums) == 3 * (b - a + 1), (nm, k, a, b, len(nums))
    lst = F.setdefault((nm, k), [])
    assert len(lst) == a - 1
    for j in range(0, len(nums), 3):
        lst.append(nums[j:j+3])
def num(n):
    s, i, f, e = n
    m = int(s + i + f); e = len(f) - int(e)
    return (f"({m})" if m < 0 else str(m)) + f" {e}"
out = ["import Verif.Model.Epv.Table", "", "/-!", "# Reference ephemeris data",
 "", "The `DATA` statements of `/repo/fortran/epv00.for` (lines 68-2257), one list per series and axis; a line",
 "`r a i b j c k` is the triple `a*10^-i, b*10^-j, c*10^-k` (amplitude, phase, frequency).", "Generated by `tools/gen_epvref.py`.", "-/", "", "namespace Verif.EpvRef", "open Epv", "",
 "@[reducible] def r (a : ℤ) (i : ℕ) (b : ℤ) (j : ℕ) (c : ℤ) (k : ℕ) : Dec × Dec × Dec := (⟨a, i⟩, ⟨b, j⟩, ⟨c, k⟩)", ""]
for nm in ['E0', 'E1', 'E2', 'S0', 'S1', 'S2']:
    for k in range(3):
        L = F[nm, k]
        assert len(L) == P['N' + nm + 'XYZ'[k]]
        out.append(f"/-- `{nm}(·,·,{k+1})`: {len(L)} terms. -/\ndef {nm}{'XYZ'[k]} : List (Dec × Dec × Dec) := [")
        out.append(",\n".join("  r " + " ".join(num(n) for n in t) for t in L) + "]\n")
out.append("end Verif.EpvRef\n")
open(os.path.join(ROOT, 'lean/Verif/Spec/EpvRef.lean'), 'w').write("\n".join(out))
print({k: len(v) for k, v in F.items()})
