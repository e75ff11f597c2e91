# Laurent polynomials with Fraction coefficients over named variables; exact division only by monomials
from fractions import Fraction as Fr
class P:
    __slots__=('d',)
    names=[]
    def __init__(s,d): s.d={k:v for k,v in d.items() if v!=0}
    @staticmethod
    def c(x): return P({(0,)*len(P.names):Fr(x)})
    @staticmethod
    def var(n):
        e=[0]*len(P.names); e[P.names.index(n)]=1; return P({tuple(e):Fr(1)})
    @staticmethod
    def lift(x): return x if isinstance(x,P) else P.c(x)
    def __add__(s,o):
        o=P.lift(o); d=dict(s.d)
        for k,v in o.d.items(): d[k]=d.get(k,0)+v
        return P(d)
    __radd__=__add__
    def __neg__(s): return P({k:-v for k,v in s.d.items()})
    def __pos__(s): return s
    def __sub__(s,o): return s+(-P.lift(o))
    def __rsub__(s,o): return P.lift(o)-s
    def __mul__(s,o):
        o=P.lift(o); d={}
        for k,v in s.d.items():
            for l,w in o.d.items():
                m=tuple(map(lambda a,b:a+b,k,l)); d[m]=d.get(m,0)+v*w
        return P(d)
    __rmul__=__mul__
    def inv(s):
        assert len(s.d)==1,len(s.d)
        (k,v),=s.d.items(); return P({tuple(-a for a in k):1/v})
    def __truediv__(s,o):
        o=P.lift(o); return s*o.inv()
    def __rtruediv__(s,o): return P.lift(o)*s.inv()
    def __pow__(s,n):
        if n<0: return s.inv()**(-n)
        r=P.c(1)
        for _ in range(n): r=r*s
        return r
    def coeffs(s,n):
        i=P.names.index(n); r={}
        for k,v in s.d.items():
            e=k[i]; kk=k[:i]+(0,)+k[i+1:]; r.setdefault(e,{})[kk]=v
        return {e:P(x) for e,x in r.items()}
    def subs(s,n,val):
        r=P({})
        pw={}
        for e,c in s.coeffs(n).items():
            if e not in pw: pw[e]=P.lift(val)**e
            r=r+c*pw[e]
        return r
    def trunc(s,n,m):  # drop exponents of n > m
        i=P.names.index(n); return P({k:v for k,v in s.d.items() if k[i]<=m})
    def lean(s,mult=lambda x:x):
        out=[]
        for k,v in sorted(s.d.items(),reverse=True):
            t=[]
            c=v
            num='%d'%abs(c.numerator) if c.denominator==1 else '%d/%d'%(abs(c.numerator),c.denominator)
            for e,n in zip(k,P.names):
                if e==1: t.append(n)
                elif e>1: t.append('%s^%d'%(n,e))
                elif e<0: raise ValueError(n)
            if not t: term=num
            elif num=='1': term='*'.join(t)
            else: term=num+'*'+'*'.join(t)
            out.append((' - ' if c<0 else ' + ')+term)
        r=''.join(out)
        if r.startswith(' + '): r=r[3:]
        elif r.startswith(' - '): r='-'+r[3:]
        return r or '0'
def leanf(s,skip=('pi',)):
    """function style: k1 6*k2 2"""
    out=[]
    for k,v in sorted(s.d.items(),reverse=True):
        t=[]
        num='%d'%abs(v.numerator) if v.denominator==1 else '%d/%d'%(abs(v.numerator),v.denominator)
        for e,n in zip(k,P.names):
            if e<0: raise ValueError(n)
            if e>0: t.append('%s %d'%(n,e))
        term=num if not t else ('*'.join(t) if num=='1' else num+'*'+'*'.join(t))
        out.append((' - ' if v<0 else ' + ')+term)
    r=''.join(out)
    if r.startswith(' + '): r=r[3:]
    elif r.startswith(' - '): r='-('+out[0][3:]+')'+r[len(out[0]):]
    return r or '0'
def grouped(s,n):
    """group by powers of n"""
    cs=s.coeffs(n); out=[]
    for e in sorted(cs):
        t='('+leanf(cs[e])+')'
        out.append(t if e==0 else t+'*%s %d'%(n,e))
    return ' + '.join(out)
