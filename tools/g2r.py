import re
from fractions import Fraction as Fr
src=open('/tmp/num/g2.py').read()
import g2
D=Fr
g2.D=Fr; g2.PI=Fr(1)
e,k,q=Fr(1),Fr(500),Fr(51)
def isq(x):
    import math
    n,d=math.isqrt(x.numerator),math.isqrt(x.denominator)
    assert n*n==x.numerator and d*d==x.denominator,x
    return Fr(n,d)
def coefs(t):
    def run(fn,args,L=lambda a,b:Fr(0),W=lambda a,b,c,d:Fr(0),lg=lambda x:Fr(0),sq=lambda x:Fr(1)):
        g2.LFunc=L;g2.WFunc=W;g2.log=lg;g2.my_sqrt=sq;g2.my_pow=lambda x,y:(isq(x)**3 if y==Fr(3,2) else x**int(y)); g2.power=lambda x,n:x**int(n); g2.my_abs=abs; g2.my_log=lg
        fs,_=g2.compile_all()
        return fs['kernel_gamma2%s_%s'%(t,fn)](*args)
    ex=(e,k,k,q)
    b=run('exact',ex)
    cA=run('exact',ex,L=lambda a,c:Fr(int(a==e)))-b
    cB=run('exact',ex,L=lambda a,c:Fr(int(a==k)))-b
    c1=run('exact',ex,W=lambda a,bb,c,d:Fr(int(c==k)))-b
    c2=run('exact',ex,W=lambda a,bb,c,d:Fr(int(c==e)))-b
    r=Fr(551,449)
    def lg(x):
        if x==r: return Fr(1)
        if x==r*r: return Fr(2)
        raise Exception(x)
    el=(k,e,k,q)
    f0=run('elongate',el,sq=isq)
    f1=run('elongate',el,lg=lg,sq=isq)-f0
    return b,cA,cB,c1,c2,f0,f1/2
if __name__=='__main__':
    import math
    for t in 'dt':
        c=coefs(t)
        for x in c: print(x, float(x))
        A=2*math.log(52/50);B=2*math.log(551/449)
