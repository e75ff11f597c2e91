import sys;
import lowk as lk
from lp import *
V=lk.V
import builtins
lk_ns=lk.F
def mypow(x,y): return x**int(y)
for f in lk.F.values(): f.__globals__['my_pow']=mypow
from math import lcm
def split(R,keys=('k1','k2','k3')):
    """R Laurent -> (numerator poly, integer den, exps) """
    den=1
    for v in R.d.values(): den=lcm(den,v.denominator)
    mn=[0]*len(P.names)
    for k in R.d:
        for i,e in enumerate(k): mn[i]=min(mn[i],e)
    num=P({tuple(a-b for a,b in zip(k,mn)):v*den for k,v in R.d.items()})
    return num,den,[-m for m in mn]
def show(R):
    num,den,ex=split(R)
    d=[str(den)]+['%s %d'%(n,e) for n,e in zip(P.names,ex) if e]
    return '(%s)/(%s)'%(grouped(num,'q'),'*'.join(d))
def collect(R,n):
    """as polynomial in n with coefficient rational"""
    return R
if __name__=='__main__':
    f=sys.argv[1]
    a=[V['k1'],V['k2'],V['k3'],V['q']]
    ex=lk.F['kernel_gamma2%s_exact'%f](*a)
    c={n:ex.coeffs(n).get(1) for n in ('L1','L2','L3','W1','W2','W3')}
    e0=ex
    for n in c: e0=e0.subs(n,P.c(0))
    for n in c: print(n,show(c[n])[:300])
    print(show(e0)[:500])
