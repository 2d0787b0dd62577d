import re
from fractions import Fraction as Fr
def load():
    G={};n=None
    for ln,l in enumerate(open('/repo/panels/core/src/legendre_gauss_quadrature.cpp'),1):
        mm=re.match(r'^\s*case (\d+):',l)
        if mm: n=int(mm.group(1)); G[n]=({},{},ln); continue
        mm=re.match(r'^\s*(points|weights)\[(\d+)\] = (.*);',l)
        if mm:
            d=G[n][0 if mm.group(1)=='points' else 1]
            assert int(mm.group(2)) not in d
            d[int(mm.group(2))]=Fr(mm.group(3))
    return G
if __name__=='__main__':
    G=load()
    for n in sorted(G):
        P,W,ln=G[n]
        assert sorted(P)==list(range(n))==sorted(W),n
        p=[P[i] for i in range(n)]; w=[W[i] for i in range(n)]
        sym=all(p[i]==-p[n-1-i] and w[i]==w[n-1-i] for i in range(n))
        inc=all(p[i]<p[i+1] for i in range(n-1))
        # moments in Legendre basis
        worst=0; wk=None
        q=[Fr(1)]*n
        for k in range(0,2*n):
            s=sum(w[i]*p[i]**k for i in range(n))
            ex=Fr(2,k+1) if k%2==0 else 0
            if abs(s-ex)>worst: worst=abs(s-ex); wk=k
        print(n,ln,sym,inc,min(w)>0,max(p)<1,float(worst),wk)
