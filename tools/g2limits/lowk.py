import sys; sys.path.insert(0,'/verif/tools')
import re
from lp import *
import g2
P.names=['k1','k2','k3','q','L1','L2','L3','W1','W2','W3','pi']
V={n:P.var(n) for n in P.names}
class Sq:  # sqrt marker
    def __init__(s,x): s.x=x
    def __rmul__(s,o): return Prod(P.lift(o),s)
    def __mul__(s,o): return Prod(P.lift(o),s)
class WW:
    def __init__(s,n): s.n=n
class T: pass
def Lf(k,q):
    for n in ('k1','k2','k3'):
        if k.d==V[n].d: return V['L'+n[1]]
def Wf(a,b,c,q):
    n=[n for n in ('k1','k2','k3') if c.d==V[n].d][0]
    return V['W'+{'k3':'1','k2':'2','k1':'3'}[n]]
def load():
    ns=dict(P=P,Fr=Fr)
    ns['M_PI']=V['pi']; ns['LFunc']=Lf; ns['WFunc']=Wf; ns['power']=lambda x,n:x**int(n); ns['my_sqrt']=lambda x:P.c(1)
    ns['D']=lambda s:Fr(s)
    ns['log']=None; ns['my_pow']=lambda x,n:x**int(n)
    F={}
    src=open('/verif/tools/g2.py').read()
    code=src[src.index('def compile_all'):]
    ns2={}
    # reuse: exec generated python with our namespace
    import types
    g=g2
    def comp(n,b):
        b2=b.replace('\n',' ').replace('\t',' ')
        lines=[]
        b2=re.sub(r'for \(i=0;i<(\d+);i\+\+\)',r'FOR\1FOR',b2)
        for s in b2.split(';'):
            s=s.strip()
            if not s or s.startswith('size_t'): continue
            m=re.match(r'histo_t (.*)$',s)
            if m and '=' not in s:
                for v in m.group(1).split(','):
                    mm=re.match(r'(\w+)\[(\w+)\]',v.strip())
                    if mm: lines.append('%s=[None]*20'%mm.group(1))
                continue
            s=re.sub(r'^histo_t ','',s)
            m=re.match(r'powers\((.*),(\w+),NPOWERS\)',s)
            if m:
                lines.append('%s=[P.lift(%s)**i_ for i_ in range(20)]'%(m.group(2),m.group(1))); continue
            s=re.sub(r'(?<![\w\[.])(\d+\.?\d*(?:e[+-]?\d+)?)(?![\w\]])',lambda m:"D('%s')"%m.group(1),s)
            m=re.match(r'FOR(\d+)FOR (.*)$',s)
            if m: s='for i in range(%s): %s'%(m.group(1),m.group(2))
            lines.append(s)
        code='def %s(k1_,k2_,k3_,q_):\n'%n+''.join('  '+l+'\n' for l in lines)
        exec(code,ns); return ns[n]
    for fn in ['gamma2d_1loop.c','gamma2t_1loop.c']:
        for n,b in g2.load('/repo/src/'+fn).items():
            if n.endswith(('_exact','_lowk','_highk')): F[n]=comp(n,b)
    return F
F=load()
if __name__=='__main__':
  for f in 'dt':
    a=[V['k1'],V['k2'],V['k3'],V['q']]
    ex=F['kernel_gamma2%s_exact'%f](*a); lo=F['kernel_gamma2%s_lowk'%f](*a); hi=F['kernel_gamma2%s_highk'%f](*a)
    for n in ('L1','L2','L3','W1','W2','W3'):
        c=ex.coeffs(n); print(f,n,{e:len(x.d) for e,x in c.items()}, c[1].coeffs('q').keys())
    # lowk
    q=V['q']
    def Lt(n,N): k=V[n]; return sum((4*(k/q)**(2*j+1)/(2*j+1) for j in range(N)),P.c(0))
    def Wt(a,b,c):
        a,b,c=V[a],V[b],V[c]; S=a*a+b*b-c*c; Pp=a*a*b*b; u=q**-2
        return 4*c*q**-3*(1+(S+c*c/3)*u+(S*S-Pp+S*c*c*Fr(2,3)+c**4/5)*u*u)
    M=ex
    for n in '123': M=M.subs('L'+n,Lt('k'+n,5))
    M=M.subs('W1',Wt('k1','k2','k3')).subs('W2',Wt('k1','k3','k2')).subs('W3',Wt('k2','k3','k1'))
    R=M-lo
    print('lowk rem',len(R.d),{e:len(x.d) for e,x in R.coeffs('q').items()})
    def Lh(n,N): k=V[n]; return sum((4*(q/k)**(2*j+1)/(2*j+1) for j in range(N)),P.c(0))
    def Wh(a,b,c):
        a,b,c=V[a],V[b],V[c]; S=a*a+b*b-c*c; Pp=a*a*b*b; u=q**2
        # 1/D = 1/P * 1/(1 - (S u - u^2)/P)
        z=(S*u-u*u)/Pp
        i1=sum((z**j for j in range(5)),P.c(0))/Pp
        tot=P.c(0); x=P.c(1)*i1; 
        for j in range(5):
            tot=tot+x/(2*j+1); x=(x*i1*c*c*u).trunc('q',8)
        return (4*c*q*tot).trunc('q',7)
    M=ex
    for n in '123': M=M.subs('L'+n,Lh('k'+n,4))
    M=M.subs('W1',Wh('k1','k2','k3')).subs('W2',Wh('k1','k3','k2')).subs('W3',Wh('k2','k3','k1'))
    R=M-hi
    print('highk rem',len(R.d),{e:len(x.d) for e,x in R.coeffs('q').items()})
