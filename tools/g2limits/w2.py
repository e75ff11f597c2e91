import sys,re;
src=open(sys.path[0]+'/w.py').read().split("fn='/verif")[0]
exec(src)
def wrap(s,ind='    '):
    out=[];cur=''
    for w in s.split(' '):
        if len(cur)+len(w)+1>140-len(ind): out.append(cur); cur=w
        else: cur=(cur+' '+w) if cur else w
    out.append(cur)
    return ('\n'+ind).join(out)
sp=lambda x: x.replace('*',' * ').replace('^',' ^ ').replace('/',' / ')
fn='/verif/lean/Verif/Proofs/Gamma2Asym.lean'
s=open(fn).read()
s=re.sub(r'(def triZeroRem .*? :=\n  ).*?(\n\ntheorem zero_algebra)',lambda m:m.group(1)+wrap(sp(hi.lean()))+m.group(2),s,flags=re.S)
s=re.sub(r'(unfold triZeroRem\n  linear_combination \().*?(\) \* h\n)',lambda m:m.group(1)+wrap(sp(co.lean()))+m.group(2),s,flags=re.S,count=1)
open(fn,'w').write(s)
