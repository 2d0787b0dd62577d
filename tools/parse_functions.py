import re
from fractions import Fraction as Fr
SRC='/repo/panels/core/src/'
def num(s): return Fr(s)
def parse_poly(s):
    """returns (prefix flag or None, dict pow->Fr)"""
    s=s.replace(' ','').rstrip(';')
    pref=None
    mm=re.match(r'^(xi1t|xi1r|xi2t|xi2r)\*\((.*)\)$',s)
    if mm: pref=mm.group(1); s=mm.group(2)
    shift=0
    mm=re.match(r'^xi\*\((.*)\)$',s)
    if mm: shift=1; s=mm.group(1)
    s=s.replace('e-','eM').replace('e+','eP')
    terms=re.findall(r'[+-]?[^+-]+',s)
    d={}
    for t in terms:
        t=t.replace('eM','e-').replace('eP','e+')
        mm=re.match(r'^([+-]?)([0-9.e+-]*)(?:\*?)(?:(pow\(xi,(\d+)\))|(xi))?$',t)
        assert mm,(t,s)
        sg=-1 if mm.group(1)=='-' else 1
        c=Fr(mm.group(2)) if mm.group(2) else Fr(1)
        p=int(mm.group(4)) if mm.group(3) else (1 if mm.group(5) else 0)
        assert p+shift not in d
        d[p+shift]=sg*c
    return pref,d
def load_funcs():
    L=open(SRC+'bardell_functions.cpp').read().split('\n')
    vec={'f':{},'fp':{},'fpp':{}}; sw={'f':{},'fp':{},'fpp':{}}
    cur=None;case=None
    for ln,l in enumerate(L,1):
        mm=re.match(r'^\s*(f|fp|fpp)\[(\d+)\] = (.*);',l)
        if mm:
            vec[mm.group(1)][int(mm.group(2))]=(ln,)+parse_poly(mm.group(3)); continue
        mm=re.match(r'^EXPORTIT double (f|fp|fpp)\(',l)
        if mm: cur=mm.group(1)
        mm=re.match(r'^\s*case (\d+):',l)
        if mm: case=int(mm.group(1))
        if re.match(r'^\s*default',l): case=-1
        mm=re.match(r'^\s*return (.*);',l)
        if mm: sw[cur][case]=(ln,)+parse_poly(mm.group(1)) if mm.group(1)!='xi' else None
    return vec,sw
if __name__=='__main__':
    vec,sw=load_funcs()
    for k in vec: print(k,len(vec[k]),len(sw[k]), all(vec[k][i][1:]==sw[k][i][1:] for i in vec[k]))
    # default?
    def der(d): return {p-1:c*p for p,c in d.items() if p>0}
    from math import factorial
    def df(n): 
        r=1
        while n>1: r*=n; n-=2
        return r
    for k,k2 in (('f','fp'),('fp','fpp')):
        worst=0
        for i in range(30):
            a=der(vec[k][i][2]); b=vec[k2][i][2]
            assert vec[k][i][1]==vec[k2][i][1]
            assert set(a)==set(b),(i,a,b)
            worst=max(worst,max((abs(a[p]-b[p])/abs(b[p]) for p in b),default=0))
        print(k,k2,float(worst))
    # exact: Rodrigues f_r = sum_{n=0}^{r/2} (-1)^n (2r-2n-7)!! / (2^n n! (r-2n-1)!) xi^{r-2n-1}  r>4 (1-based)
    def exact(r):
        d={}
        for n in range(0,r//2+1):
            e=r-2*n-1
            if e<0: continue
            d[e]=Fr((-1)**n*df(2*r-2*n-7),2**n*factorial(n)*factorial(e))
        return d
    worst=0
    for i in range(4,30):
        e=exact(i+1); b=vec['f'][i][2]
        assert set(e)==set(b),(i,set(e)^set(b))
        w=max(abs(e[p]-b[p])/abs(e[p]) for p in e)
        worst=max(worst,w)
        if w>1e-14: print(i,float(w))
    print('exact',float(worst))
    for i in range(30):
        for k in ('f','fp'):
            d=vec[k][i][2]
            print(i,k,float(sum(d.values())),float(sum(c*(-1)**p for p,c in d.items())))
