#!/usr/bin/env python3
"""Turn the value expressions of the Cython builders of /repo into Lean definitions.

Each assignment `kXv[c] += expr` (or `fint[col+a] += expr`, `exx += expr`) becomes one
Lean definition; the loop-local names occurring in it become `let`s in front.  Nothing is
simplified.  Usage: translate.py REPO OUTDIR
"""
import re, sys, os
from fractions import Fraction

REPO, OUT = sys.argv[1], sys.argv[2]
LAM = {'A11': (0,0), 'A12': (0,1), 'A16': (0,2), 'A22': (1,1), 'A26': (1,2), 'A66': (2,2),
       'B11': (0,3), 'B12': (0,4), 'B16': (0,5), 'B22': (1,4), 'B26': (1,5), 'B66': (2,5),
       'D11': (3,3), 'D12': (3,4), 'D16': (3,5), 'D22': (4,4), 'D26': (4,5), 'D66': (5,5)}

def read(path):
    return open(os.path.join(REPO, path)).read().split('\n')

def functions(lines):
    starts = [(no, re.match(r'^(?:def|cdef [\w\[\]:, ]+?|cpdef \w+) (\w+)\(', l)) for no, l in enumerate(lines)]
    starts = [(no, m.group(1)) for no, m in starts if m]
    res = {}
    for q, (no, name) in enumerate(starts):
        end = starts[q+1][0] if q+1 < len(starts) else len(lines)
        res[name] = (no, end)
    return res

def panel_of(suffix):
    return {'': 'P', '1': 'P1', '2': 'P2', 'f': 'Pf'}[suffix]

def flags(args):
    """['x1u','x1ur','x2u','x2ur'] -> 'P.xu' (checks the order)."""
    m = re.match(r'^([xy])1([uvw])([12f]?)$', args[0])
    assert m, args
    ax, fld, suf = m.groups()
    assert args == ['%s1%s%s' % (ax, fld, suf), '%s1%sr%s' % (ax, fld, suf),
                    '%s2%s%s' % (ax, fld, suf), '%s2%sr%s' % (ax, fld, suf)], args
    return '%s.%s%s' % (panel_of(suf), ax, fld), panel_of(suf)

def num(tok):
    fr = Fraction(tok)
    if fr.denominator == 1:
        return str(fr.numerator)
    return '(%d/%d)' % (fr.numerator, fr.denominator)

class Fn:
    def __init__(self, path, name, inline=()):
        self.path, self.name = path, name
        lines = read(path)
        fs = functions(lines)
        self.s, self.e = fs[name]
        self.lines = lines
        self.defs = {}      # name -> list of (lineno, rhs)
        self.inline = set(inline)
        for no in range(self.s, self.e):
            l = lines[no].split('#')[0]
            m = re.match(r'^\s+(\w+) = (.*?)\s*$', l)
            if m and not l.strip().startswith('cdef'):
                for part in l.strip().split(';'):
                    mm = re.match(r'^\s*(\w+) = (.*?)\s*$', part)
                    if mm:
                        self.defs.setdefault(mm.group(1), []).append((no+1, mm.group(2)))
        self.check_reads()

    def check_reads(self):
        for nm, ds in self.defs.items():
            for no, rhs in ds:
                m = re.match(r'^([xy])([12])([uvw])(r?)([12f]?)$', nm)
                if m:
                    obj = {'': ('shell', 'p'), '1': ('p1',), '2': ('p2',)}[m.group(5)]
                    base = nm[:len(nm)-len(m.group(5))] if m.group(5) else nm
                    assert rhs in ['%s.%s' % (o, base) for o in obj], (self.path, no, nm, rhs)
                if nm in LAM:
                    r, c = LAM[nm]
                    assert rhs in ('F[%d,%d]' % (r, c), 'F[%d*6 + %d]' % (r, c)), (self.path, no, nm, rhs)

    def call(self, rhs):
        m = re.match(r'^(f|fp|fpp)\((\w+), (-?\w+\.?), (.*)\)$', rhs)
        if m:
            fn, idx, pt, rest = m.groups()
            fl, p = flags([x.strip() for x in rest.split(',')])
            if pt == '-1.':
                pts = '(-1)'; free = set()
            else:
                pts = pt; free = {pt}
            return 'S.%s %s %s %s' % (fn, idx, pts, fl), free, {'S'}, {idx}, {p}
        m = re.match(r'^integral_(\w+)\((\w+), (\w+), (.*)\)$', rhs)
        if m:
            fn, i1, i2, rest = m.groups()
            aa = [x.strip() for x in rest.split(',')]
            f1, p1 = flags(aa[:4]); f2, p2 = flags(aa[4:])
            return 'I.%s %s %s %s %s' % (fn, i1, i2, f1, f2), set(), {'I'}, {i1, i2}, {p1, p2}
        return None

    def expr(self, e):
        """python expression -> (lean text, names)."""
        e = re.sub(r'cs\[col\+(\d)\]', r'c\1', e)
        toks = re.findall(r'\d+\.\d*|\d+|[A-Za-z_]\w*|\*\*|[-+*/()]|\s+', e)
        assert ''.join(toks) == e, e
        out, names = [], []
        for t in toks:
            if re.match(r'\d', t):
                out.append(num(t if not t.endswith('.') else t[:-1]))
            elif t == '**':
                out.append('^')
            elif re.match(r'[A-Za-z_]', t):
                names.append(t)
                out.append(self.sub(t))
            else:
                out.append(t)
        return ''.join(out), names

    def sub(self, t):
        if t in LAM:
            return 'F.' + t
        m = re.match(r'^([abr])([12]?)$', t)
        if m:
            return '%s.%s' % (panel_of(m.group(2)), m.group(1))
        return t

    def translate(self, lineno, e, near=None):
        """returns (lets, body, params) ; definitions are looked up as the last ones above lineno"""
        body, names = self.expr(e)
        lets, seen = [], {}
        S, idxs, pans, scal, lam = set(), set(), set(), [], False
        cited = []
        def visit(nm):
            nonlocal lam
            if nm in seen: return
            if nm in LAM:
                lam = True; return
            m = re.match(r'^([abr])([12]?)$', nm)
            if m:
                pans.add(panel_of(m.group(2))); return
            ds = [d for d in self.defs.get(nm, []) if d[0] < lineno]
            if ds:
                c = self.call(ds[-1][1])
                if c:
                    seen[nm] = True
                    txt, free, st, ix, ps = c
                    for fr in sorted(free): visit(fr)
                    S.update(st); idxs.update(ix); pans.update(ps)
                    lets.append('let %s := %s' % (nm, txt)); cited.append(ds[-1][0])
                    return
                if nm in self.inline:
                    seen[nm] = True
                    txt, nms = self.expr(ds[-1][1])
                    for x in nms: visit(x)
                    lets.append('let %s := %s' % (nm, txt)); cited.append(ds[-1][0])
                    return
            seen[nm] = True
            scal.append(nm)
        for nm in names: visit(nm)
        return dict(lets=lets, body=body, S=S, idxs=idxs, pans=pans, scal=scal, lam=lam, cited=cited, line=lineno)

    def writes(self, arr=None):
        """all (alpha, beta, lineno, expr) of `<arr>v[c] += expr`"""
        res, r, c = [], None, None
        no = self.s
        while no < self.e:
            l = self.lines[no]
            m = re.match(r'^\s+(\w+)([rc])\[c\] = (row|col)\+(\d)\s*$', l)
            if m:
                assert (m.group(2) == 'r') == (m.group(3) == 'row')
                if m.group(2) == 'r': r = int(m.group(4))
                else: c = int(m.group(4))
            m = re.match(r'^\s+(\w+)v\[c\] \+?= (.*?)\s*$', l)
            if m:
                e = m.group(2); first = no+1
                while e.count('(') > e.count(')'):
                    no += 1; e += ' ' + self.lines[no].strip()
                res.append((r, c, first, e))
            no += 1
        return res

ORDER_IDX = ['i','i1','i2','k','k1','k2','j','j1','j2','l','l1','l2']
ORDER_PAN = ['P','P1','P2','Pf']

def uniform(ts):
    S = set().union(*[t['S'] for t in ts]); pans = set().union(*[t['pans'] for t in ts])
    idxs = set().union(*[t['idxs'] for t in ts]); lam = any(t['lam'] for t in ts)
    scal = []
    for t in ts:
        for x in t['scal']:
            if x not in scal: scal.append(x)
    scal.sort()
    p = ''
    if 'S' in S: p += ' (S : Shape K)'
    if 'I' in S: p += ' (I : Tab K)'
    ps = [x for x in ORDER_PAN if x in pans]
    if ps: p += ' (%s : Panel K)' % ' '.join(ps)
    if lam: p += ' (F : Lam K)'
    if scal: p += ' (%s : K)' % ' '.join(scal)
    ix = [x for x in ORDER_IDX if x in idxs]
    if ix: p += ' (%s : ℕ)' % ' '.join(ix)
    args = (['S'] if 'S' in S else []) + (['I'] if 'I' in S else []) + ps + (['F'] if lam else []) + scal + ix
    return p, args

def wrap(s, ind, width=96):
    out, cur = [], ''
    for w in s.split(' '):
        if cur and len(ind) + len(cur) + 1 + len(w) > width:
            out.append(ind + cur); cur = w
        else:
            cur = (cur + ' ' + w) if cur else w
    out.append(ind + cur)
    return '\n'.join(out)

def ranges(ns):
    ns = sorted(set(ns)); out = []
    for n in ns:
        if out and n == out[-1][1]+1: out[-1][1] = n
        else: out.append([n, n])
    return ', '.join('%d' % a if a == b else '%d-%d' % (a, b) for a, b in out)

def emit_def(name, t, params, fn):
    doc = '`%s` (`%s`), line %d' % (fn.path, fn.name, t['line'])
    if t['cited']: doc += '; names from lines %s' % ranges(t['cited'])
    s = '/-- ' + wrap(doc + '. -/', '', 92).strip() + '\n'
    s += 'def %s%s : K :=\n' % (name, params)
    for l in t['lets']: s += '  ' + l + ';\n'
    s += wrap(t['body'], '  ') + '\n'
    return s

def gen_module(modname, items, extra=''):
    """items: list of (fn, prefix)"""
    s = 'import Verif.Model.Types\n\n/-!\nGenerated by `/verif/tools/translate.py` from the sources named in the comments; the\nexpressions are verbatim, decimals are kept as the printed rationals.\n-/\n\n'
    s += 'set_option linter.unusedVariables false\n\nnamespace Verif.Gen.%s\n\nvariable {K : Type*} [Field K]\n\n' % modname
    for fn, prefix in items:
        ws = fn.writes()
        assert ws, (fn.path, fn.name)
        ts = [fn.translate(no, e) for _, _, no, e in ws]
        params, args = uniform(ts)
        keys = [(r, c) for r, c, _, _ in ws]
        dup = len(set(keys)) != len(keys)
        names = []
        for q, ((r, c, no, e), t) in enumerate(zip(ws, ts)):
            nm = '%s_%d%d' % (prefix, r, c) if not dup else '%s_w%d' % (prefix, q)
            names.append(nm)
            s += emit_def(nm, t, params, fn) + '\n'
        s += '/-- The `(α, β)` written by `%s` (`%s`), in program order. -/\n' % (fn.name, fn.path)
        s += 'def %s_pat : List (ℕ × ℕ) := [%s]\n\n' % (prefix, ', '.join('(%d,%d)' % k for k in keys))
        if not dup:
            s += '/-- Value written by `%s` at `(row+α, col+β)`. -/\n' % fn.name
            s += 'def %s%s (α β : ℕ) : K :=\n  match α, β with\n' % (prefix, params)
            for (r, c), nm in zip(keys, names):
                s += '  | %d, %d => %s %s\n' % (r, c, nm, ' '.join(args))
            s += '  | _, _ => 0\n\n'
    s += extra
    s += 'end Verif.Gen.%s\n' % modname
    open(os.path.join(OUT, modname + '.lean'), 'w').write(s)

M = 'panels/models/'
C = 'panels/multidomain/connections/'
T = 'panels/stiffener/models/'

def accum(fn, targets, prefix):
    """`name += expr` lines of the strain loops and `fint[col+a] += expr`, and `N.. = expr`."""
    s = ''
    lst = []
    for no in range(fn.s, fn.e):
        l = fn.lines[no].split('#')[0]
        m = re.match(r'^\s+(\w+)(\[col\+(\d)\])? (\+?=) (.*?)\s*$', l)
        if not m: continue
        nm = m.group(1) + ('_' + m.group(3) if m.group(3) else '')
        if nm in targets and (m.group(4) == '+=' or nm[0] in 'NM'):
            lst.append((nm, no+1, m.group(5)))
    groups = {}
    for nm, no, e in lst:
        groups.setdefault(targets[nm], []).append((nm, no, e))
    for g, its in groups.items():
        ts = [fn.translate(no, e) for _, no, e in its]
        params, args = uniform(ts)
        for (nm, no, e), t in zip(its, ts):
            s += emit_def('%s_%s' % (prefix, nm), t, params, fn) + '\n'
    assert set(n for n, _, _ in lst) == set(targets), (fn.path, fn.name, set(targets) - set(n for n, _, _ in lst))
    return s

STR = {k: 's' for k in ('exx','eyy','gxy','kxx','kyy','kxy')}
NN = {k: 'n' for k in ('Nxx','Nyy','Nxy')}
MM = {k: 'n' for k in ('Nxx','Nyy','Nxy','Mxx','Myy','Mxy')}
W = {k: 'w' for k in ('wxi','weta')}
FI = {'fint_0': 'f', 'fint_1': 'f', 'fint_2': 'f'}

if __name__ == '__main__':
    os.makedirs(OUT, exist_ok=True)
    pa, ca = M+'plate_clpt_donnell_bardell.pyx', M+'cylshell_clpt_donnell_bardell.pyx'
    pn, cn = M+'plate_clpt_donnell_bardell_num.pyx', M+'cylshell_clpt_donnell_bardell_num.pyx'
    for mod, path in (('PlateAna', pa), ('CylAna', ca)):
        gen_module(mod, [(Fn(path, x), x) for x in ('fk0','fkG0','fkM','fkAx','fkAy','fcA')])
    def numex(path):
        fk = Fn(path, 'fkG_num'); fi = Fn(path, 'calc_fint'); kc = Fn(path, 'fkC_num')
        return (accum(kc, W, 'fkC_num') + accum(fk, {**W, **STR, **NN}, 'fkG_num')
                + accum(fi, {**W, **STR, **MM, **FI}, 'fint'))
    gen_module('PlateNum', [(Fn(pn, x), x) for x in ('fkC_num','fkG_num','fkM_num','fkAx_num','fkAy_num')], numex(pn))
    gen_module('CylNum', [(Fn(cn, x), x) for x in ('fkC_num','fkG_num','fkAx_num')], numex(cn))
    items = []
    for base in ('SSxcte','SSycte','BFxcte','BFycte','SB'):
        for w in ('11','12','22'):
            items.append((Fn(C+'kC%s.pyx' % base, 'fkC%s%s' % (base, w),
                             inline=('xicte1','xicte2','etacte1','etacte2')), 'k%s%s' % (base, w)))
    gen_module('Conn', items)
    gen_module('Pd', [(Fn(C+'kCpd.pyx', x, inline=('xip','etap')), x) for x in ('fkCpd','fkCld_xcte','fkCld_ycte')])
    gen_module('Blade1D', [(Fn(T+'bladestiff1d_clt_donnell_bardell.pyx', x, inline=('eta',)), x) for x in ('fkCf','fkGf','fkMf')])
    gen_module('Blade2D', [(Fn(T+'bladestiff2d_clt_donnell_bardell.pyx', x, inline=('eta',)), x) for x in ('fkCss','fkCsf','fkCff')])
