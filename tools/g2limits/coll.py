import sys,re;
from form import *
def body(f,name):
    s=open('/verif/lean/Verif/Model/Gamma2%s.lean'%f).read()
    return ' '.join(re.search(r'def g2%s%s .*?:=\n(.*?)\n\n'%(f,name),s,re.S).group(1).split())
def match(s,i):
    d=0
    for j in range(i,len(s)):
        if s[j]=='(': d+=1
        elif s[j]==')':
            d-=1
            if d==0: return j
def terms(s):
    """top-level summands with signs"""
    out=[];d=0;cur='';sg='+'
    i=0
    while i<len(s):
        ch=s[i]
        if ch=='(': d+=1
        if ch==')': d-=1
        if d==0 and s[i:i+3] in(' + ',' - '):
            out.append((sg,cur)); sg=s[i+1]; cur=''; i+=3; continue
        cur+=ch; i+=1
    out.append((sg,cur)); return out
def coll(f,n):
    b=body(f,'Coll%d'%n)
    i=b.index('('); j=match(b,i)
    return b[:i],terms(b[i+1:j]),b[j+1:]
def elong(f):
    b=body(f,'ElongateE'); i=b.index('('); j=match(b,i)
    return b[:i],terms(b[i+1:j]),b[j+1:]
if __name__=='__main__':
    for f in 'dt':
        for n in range(3):
            pre,t,post=coll(f,n); print(f,n,repr(pre),repr(post)); 
            for sg,x in t: print('   ',sg,x[:60],'LOG' if 'abs' in x else 'W2' if '(-k1 2 + k2 2 + q 2)' in x else 'W3' if '(k1 2 - k2 2 + q 2)' in x else '')
        pre,t,post=elong(f); print(pre,post)
        for sg,x in t: print('   ',sg,x[:60],x[-60:])
        i=t[-1][1].index('('); j=match(t[-1][1],i)
        for sg,x in terms(t[-1][1][1:j]): print('      ',sg,x[:50],x[-30:])
