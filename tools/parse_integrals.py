from parse_functions import *
def load_int():
    L=open(SRC+'bardell.cpp').read().split('\n')
    T={};cur=None;depth=0;i=j=None
    for ln,l in enumerate(L,1):
        mm=re.match(r'^EXPORTIT double integral_(\w+)\(',l)
        if mm: cur=mm.group(1); T[cur]={}; continue
        mm=re.match(r'^(\s*)switch\((\w)\)',l)
        if mm: sw=mm.group(2); continue
        mm=re.match(r'^(\s*)case (\d+):',l)
        if mm:
            if len(mm.group(1))==4: i=int(mm.group(2))
            else: j=int(mm.group(2))
            continue
        mm=re.match(r'^(\s*)default',l)
        if mm:
            if len(mm.group(1))==4: i='d'
            j='d'
            continue
        mm=re.match(r'^\s*return (.*);',l)
        if mm:
            e=mm.group(1)
            if e=='0.': T[cur][(i,j)]=(ln,Fr(0),()); continue
            parts=e.split('*')
            sg=1
            if parts[0].startswith('-') and not re.match(r'^-[0-9.]',parts[0]):
                sg=-1; parts[0]=parts[0][1:]
            c=Fr(sg);fl=[]
            for p in parts:
                if re.match(r'^-?[0-9.]',p): c*=Fr(p)
                else: fl.append(p)
            assert all(re.match(r'^[xy][12][tr]$',p) for p in fl),(ln,e)
            assert (i,j) not in T[cur],(ln,i,j)
            T[cur][(i,j)]=(ln,c,tuple(fl))
            continue
        if l.strip() not in ('','}','{') : print(ln,l[:80]) if ln>20 and 'double' not in l else None
    return T
if __name__=='__main__':
    vec,sw=load_funcs()
    for k in vec: print(k,all(vec[k][i][1:]==sw[k][i][1:] for i in range(30)))
    T=load_int()
    for k in T: print(k,len(T[k]),[x for x in T[k] if 'd' in x][:3], sum('d' in x for x in T[k]))
    from math import factorial
    def df(n):
        r=1
        while n>1: r*=n; n-=2
        return r
    def exact(i):
        if i<4: return vec['f'][i][2]
        r=i+1;d={}
        for n in range(0,r//2+1):
            e=r-2*n-1
            if e<0: continue
            d[e]=Fr((-1)**n*df(2*r-2*n-7),2**n*factorial(n)*factorial(e))
        return d
    def der(d): return {p-1:c*p for p,c in d.items() if p>0}
    F={'f':[exact(i) for i in range(30)]}
    F['fp']=[der(d) for d in F['f']]; F['fpp']=[der(d) for d in F['fp']]
    def integ(a,b):
        s=Fr(0)
        for p,c in a.items():
            for q,d in b.items():
                if (p+q)%2==0: s+=c*d*Fr(2,p+q+1)
        return s
    fl=['1t','1r','2t','2r']
    for k in T:
        A,B={'ff':('f','f'),'ffp':('f','fp'),'ffpp':('f','fpp'),'fpfp':('fp','fp'),'fpfpp':('fp','fpp'),'fppfpp':('fpp','fpp')}[k]
        wr=0;wa=0
        for i in range(30):
            for j in range(30):
                ex=integ(F[A][i],F[B][j])
                e=T[k].get((i,j))
                c=e[1] if e else Fr(0)
                if (i,j) not in T[k] and (i,'d') not in T[k]: print('nodefault',k,i,j)
                want=[]
                if i<4: want.append('x'+fl[i])
                if j<4: want.append('y'+fl[j])
                if e and c!=0 and list(e[2])!=want: print('FLAGS',k,i,j,e,want)
                if abs(ex-c)>1e-9*max(1,abs(ex)) : print('BAD',k,i,j,e[0] if e else None,float(ex),float(c))
                wa=max(wa,abs(ex-c))
                if ex!=0: wr=max(wr,abs(ex-c)/abs(ex))
        print(k,float(wa),float(wr))
