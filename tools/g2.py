import re,sys
from decimal import Decimal as D, getcontext
getcontext().prec=120
PI=D('3.14159265358979323846264338327950288419716939937510582097494459230781640628620899862803482534211706798214808651')
def log(x): return D(x).ln()
def power(x,n): return x**n
def my_sqrt(x): return x.sqrt()
my_abs=abs; my_log=log
def my_pow(x,y): return (y*x.ln()).exp() if y!=int(y) else x**int(y)
def LFunc(k,q): return 2*log(abs((k+q)/(k-q)))
def WFunc(k1,k2,k3,q):
    aa=-4*k3**2*q*q-2*(k1**2-q**2)*(k2**2-q**2); bb=4*k3*q*(k1**2*k2**2+(-k1**2-k2**2+k3**2)*q**2+q**4).sqrt()
    return log((aa-bb)/(aa+bb))
def betafunc(a,z,exact=True):
    if a==2: return -z-log(1-z)
    if a==4: return -z-z*z/2-z**3/3-log(1-z)
def small_beta(k,q):
    y=(k-q)/(k+q); return y*betafunc(4,1-y*y)
def big_beta(k1,k2,k3,q):
    x=(k1*k1-q*q)*(k2*k2-q*q);a=k3*q;y=(x+a*a).sqrt()/a;y1=abs(y-1)
    return x*betafunc(2,1-y1*y1/(1+y)/(1+y))/(a*y)
def load(fn):
    src=open(fn).read()
    src=re.sub(r'/\*.*?\*/','',src,flags=re.S); src=re.sub(r'//.*','',src)
    fs={}
    for m in re.finditer(r'^histo_t (kernel_gamma2[dt]_\w+)\(histo_t k1_,histo_t k2_,histo_t k3_,histo_t q_\)\s*\{(.*?)^\}',src,re.M|re.S):
        name,body=m.groups()
        fs[name]=body
    return fs
def pyize(name,body):
    out=['def %s(k1_,k2_,k3_,q_):'%name]
    stm=[s.strip() for s in re.split(r';(?![^()]*\))',body)]
    return stm
if __name__=='__main__':
    for fn in ['gamma2d_1loop.c','gamma2t_1loop.c']:
        fs=load('/repo/src/'+fn)
        for n,b in fs.items():
            st=pyize(n,b)
            print(n,len(b),[re.sub(r'\s+',' ',s)[:60] for s in st])

def compile_all():
    ns=dict(globals()); ns['M_PI']=PI
    funcs={}
    maxidx={}
    for fn in ['gamma2d_1loop.c','gamma2t_1loop.c']:
        for n,b in load('/repo/src/'+fn).items():
            b2=b.replace('\n',' ').replace('\t',' ')
            idx=[int(i) for i in re.findall(r'\b(?:k1|k2|k3|q|eps|k)\[(\d+)\]',b2)]
            maxidx[n]=max(idx)
            lines=[]
            m=re.search(r'if \(k1_>=?k2_\) \{(.*?)\}\s*else \{(.*?)\}',b2)
            if m:
                lines.append('if k1_>=k2_: k_=k1_; eps_=k2_/k1_')
                lines.append('else: k_=k2_; eps_=k1_/k2_')
                b2=b2[:m.start()]+b2[m.end():]
            b2=re.sub(r'for \(i=0;i<(\d+);i\+\+\)',r'FOR\1FOR',b2)
            for s in b2.split(';'):
                s=s.strip()
                if not s or s.startswith('size_t'): continue
                m=re.match(r'histo_t (.*)$',s)
                if m and '=' not in s:
                    for v in m.group(1).split(','):
                        mm=re.match(r'(\w+)\[(\w+)\]',v.strip())
                        if mm: lines.append('%s=[None]*20'%mm.group(1))
                    continue
                s=re.sub(r'^histo_t ','',s)
                m=re.match(r'powers\((.*),(\w+),NPOWERS\)',s)
                if m:
                    lines.append('%s=[(%s)**i_ if i_ else D(1) for i_ in range(20)]'%(m.group(2),m.group(1))); continue
                # literals
                s=re.sub(r'(?<![\w\[.])(\d+\.?\d*(?:e[+-]?\d+)?)(?![\w\]])',lambda m:"D('%s')"%m.group(1),s)
                s=s.replace("power(","power(")
                m=re.match(r'FOR(\d+)FOR (.*)$',s)
                if m: s='for i in range(%s): %s'%(m.group(1),m.group(2))
                lines.append(s)
            code='def %s(k1_,k2_,k3_,q_):\n'%n+''.join('  '+l+'\n' for l in lines)
            try: exec(code,ns)
            except SyntaxError as e: print(n,e,code[:500]); raise
            funcs[n]=ns[n]
    return funcs,maxidx
