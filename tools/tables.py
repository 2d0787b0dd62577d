"""Prints the numeric tables of /repo/panels/core/src as Lean data (Verif/Gen/*Tab.lean).

Every decimal is written as (mantissa, decimals), i.e. mantissa / 10^decimals, exactly as printed."""
import os, sys
sys.path.insert(0, os.path.dirname(__file__))
from fractions import Fraction as Fr
import parse_gauss, parse_functions, parse_integrals
OUT = os.path.join(os.path.dirname(__file__), '..', 'lean', 'Verif', 'Gen')
FL = ['1t', '1r', '2t', '2r']
def dec(q):
    e = 0
    while (q * 10**e).denominator != 1:
        e += 1
    return int(q * 10**e), e
def hdr(t):
    return '/-!\n# ' + t + '\n\nGenerated by `tools/tables.py`.  `(z, e)` stands for the printed decimal `z / 10^e`.\n-/\n\nnamespace Verif.Gen\n\n'
# --- shape functions
vec, sw = parse_functions.load_funcs()
s = 'import Verif.Model.TableTypes\n\n' + hdr('Coefficient tables of `panels/core/src/bardell_functions.cpp`')
for kind, T in (('vec', vec), ('sc', sw)):
    for k in ('f', 'fp', 'fpp'):
        rows = []
        idx = sorted(i for i in T[k] if i >= 0)
        assert idx == list(range(30))
        for i in idx:
            ln, pref, d = T[k][i]
            code = FL.index(pref[2:]) if pref else 4
            cs = []
            for p, c in d.items():
                z, e = dec(c)
                cs.append('(%d, %d, %d)' % (p, z, e))
            rows.append('def %s_%s_%d : FRow := ⟨%d, [%s]⟩\n' % (kind, k, i, code, ', '.join(cs)))
        first, last = T[k][0][0], T[k][29][0]
        s += ''.join(rows)
        s += '\n/-- `%s` (`bardell_functions.cpp` lines %d-%d). -/\n' % (('vec_' if kind == 'vec' else '') + k, first, last)
        s += 'def %s_%s : List FRow := [%s]\n\n' % (kind, k, ', '.join('%s_%s_%d' % (kind, k, i) for i in idx))
s += 'end Verif.Gen\n'
open(OUT + '/BardellTab.lean', 'w').write(s)
# --- integrals
T = parse_integrals.load_int()
s = 'import Verif.Model.TableTypes\n\n' + hdr('Tables of `panels/core/src/bardell.cpp`')
for k in ('ff', 'ffp', 'ffpp', 'fpfp', 'fpfpp', 'fppfpp'):
    names = []
    lns = [v[0] for v in T[k].values()]
    for i in range(30):
        es = []
        for (ii, j), (ln, c, fl) in T[k].items():
            if ii != i or j == 'd':
                continue
            z, e = dec(c)
            fx = [f for f in fl if f[0] == 'x']; fy = [f for f in fl if f[0] == 'y']
            assert len(fx) <= 1 and len(fy) <= 1
            es.append('⟨%d, %d, %d, %d, %d⟩' % (j, z, e, FL.index(fx[0][1:]) if fx else 4,
                      FL.index(fy[0][1:]) if fy else 4))
        s += 'def i_%s_%d : List IEntry := [%s]\n' % (k, i, ', '.join(es))
        names.append('i_%s_%d' % (k, i))
    s += '\n/-- `integral_%s` (`bardell.cpp` lines %d-%d). -/\n' % (k, min(lns), max(lns))
    s += 'def i_%s : List (List IEntry) := [%s]\n\n' % (k, ', '.join(names))
s += 'end Verif.Gen\n'
open(OUT + '/IntegralTab.lean', 'w').write(s)
# --- Gauss
G = parse_gauss.load()
D = 56
s = 'import Verif.Model.TableTypes\n\n' + hdr('Tables of `panels/core/src/legendre_gauss_quadrature.cpp`\n\nPairs (point, weight), both multiplied by `10^56`')
for n in sorted(G):
    P, W, ln = G[n]
    prs = []
    for i in range(n):
        p, w = P[i] * 10**D, W[i] * 10**D
        assert p.denominator == 1 and w.denominator == 1
        prs.append('(%d, %d)' % (p, w))
    s += '/-- `case %d`, line %d. -/\ndef g%d : List (ℤ × ℤ) := [%s]\n\n' % (n, ln, n, ',\n  '.join(prs))
assert sorted(G) == list(range(2, 65))
s += '/-- The rules for 2, 3, …, 64 points. -/\ndef gaussRows : List (List (ℤ × ℤ)) := [%s]\n\n' % ', '.join('g%d' % n for n in sorted(G))
s += 'end Verif.Gen\n'
open(OUT + '/GaussTab.lean', 'w').write(s)
