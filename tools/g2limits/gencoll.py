import sys,re;
from coll import *
def conv(x):
    """pw style -> ordinary"""
    x=re.sub(r'\b(k1|k2|k3|q|k|eps) 1\b(?!\d)',r'\1',x)
    x=re.sub(r'\b(k1|k2|k3|q|k|eps) (\d+)\b',r'\1 ^ \2',x)
    # power
    while 'power ' in x:
        i=x.index('power '); a=i+6
        b=match(x,a) if x[a]=='(' else a+re.match(r'\w+',x[a:]).end()-1
        mm=re.match(r' (\d+)',x[b+1:])
        x=x[:i]+x[a:b+1]+' ^ '+mm.group(1)+x[b+1+mm.end():]
    return x
F4={'d':(2,7,-9),'t':(8,-5,-3)}
def low_tail(R,n,p):
    """split by power of n: part with exponent < p, tail/n^p"""
    i=P.names.index(n)
    return P({k:v for k,v in R.d.items() if k[i]<p}),P({k:v for k,v in R.d.items() if k[i]>=p})*V[n]**(-p)
def numden(R):
    num,den,ex=split(R)
    return grouped(num,'q'),'*'.join([str(den)]+['%s %d'%(n,e) for n,e in zip(P.names,ex) if e])
def gen(f):
    o=[]
    e0,c=data(f)
    C=dict(f=f,A=AR,AC='(pw k1) (pw k2) (pw (k3 / k2)) (pw q)')
    W={}; Ls={}; Ps=[]
    for n in range(3):
        pre,ts,post=coll(f,n)
        e='_eps' if n==0 else 'eps'
        pt=[(sg,x) for sg,x in ts if 'Real.log' not in x]
        rest=[(sg,x) for sg,x in ts if 'Real.log' in x]
        assert ts==pt+rest
        ptxt=pt[0][1]
        for sg,x in pt[1:]: ptxt+=' %s %s'%(sg,x)
        where='src/gamma2%s_1loop.c:%s'%(f,'372-513' if f=='d' else '351-493')
        def d(nm,txt,what): o.append('/-- %s of term %d of `kernel_gamma2%s_coll` (`%s`). -/\ndef g2%sColl%d%s (k1 k2 q : ℕ → ℝ) : ℝ :=\n  %s\n'%(what,n,f,where,f,n,nm,wrap(txt)))
        d('P',ptxt,'The polynomials')
        names=['A','B','W3','W2']; whats=['The logarithm of `k1`','The logarithm of `k2`','The logarithm with `k1²-k2²+q²`','The logarithm with `k2²-k1²+q²`']
        st='g2%sColl%dP k1 k2 q'%(f,n)
        for nm,wh,(sg,x) in zip(names,whats,rest):
            d(nm,x,wh); st+=' %s g2%sColl%d%s k1 k2 q'%(sg,f,n,nm)
            W[nm,n]=(sg,x)
        o.append('theorem g2%sColl%d_split (k1 k2 eps q : ℕ → ℝ) : g2%sColl%d k1 k2 eps q =\n    %s(%s)%s := rfl\n'%(f,n,f,n,pre,st,post))
    # W pieces
    c4,c2,c0=F4[f]
    for nm,x,y,mu in (('W3','k1','k2','k1 ^ 2 - k2 ^ 2 + q ^ 2'),('W2','k2','k1','-k1 ^ 2 + k2 ^ 2 + q ^ 2')):
        m='(q ^ 2 * (%s))'%mu; a='(%s * q)'%x; d='((%s - q) * (%s + q))'%(y,y)
        w='(%s * %s ^ 2 / (7392 * %s ^ 2 * q ^ 5))'%(x,d,y)
        t='t'; al='collA %s %s %s q t'%(d,a,m); be='collB %s %s %s q t'%(d,a,m)
        ws={0:'(%d * q ^ 4 * %s)'%(c0,w),2:'(%d * q ^ 2 * %s)'%(c2,w),4:'(%d * %s)'%(c4,w)}
        for n in range(3):
            sg,txt=W[nm,n]
            cv=conv(txt)
            sq='(Real.sqrt (q ^ 2*(%s)))'%mu
            assert sq in cv,(sq,cv[:400])
            i=cv.index('(Real.log '); j=match(cv,i); lg=cv[i:j+1]
            cv2=cv.replace(lg,'(s * t)').replace(sq,'s')
            rp='((q ^ 2*(%s))^(1.5:ℝ))'%mu
            rhs={0:'%s * t'%ws[0],1:'(%s * t + %s * %s)'%(ws[2],ws[0],al),2:'(%s * t + %s * %s + %s * %s)'%(ws[4],ws[2],al,ws[0],be)}[n]
            rhs='6209280 * k1 ^ 9 * k2 ^ 9 * q ^ 5 * %s(%s)'%('k2 ^ %d * '%(2*n) if n else '',rhs)
            lhs=('-' if sg=='-' else '')+'g2%sColl%d%s (pw k1) (pw k2) (pw q)'%(f,n,nm)
            L='collLog' if nm=='W3' else "collLog'"
            prf='''  have hs0 : 0 < s := by rw [hs]; exact Real.sqrt_pos.mpr (by positivity)
  have hm : %s ≠ 0 := hmu.ne'
  have d1 : %s - q ≠ 0 := sub_ne_zero.mpr hy.symm
  have d2 : %s + q ≠ 0 := by positivity
'''%(mu,y,y)
            if n==1: assert rp in cv2; cv2=cv2.replace(rp,'(q ^ 2 * (%s) * s)'%mu)
            prf+='  have e : g2%sColl%d%s (pw k1) (pw k2) (pw q) = %s := by\n    simp only [g2%sColl%d%s, pw, pow_one, C01_power]\n    rw [%s%s k1 k2 q h1 h2 hq hmu hy%s, ← hs, ← ht]\n'%(f,n,nm,cv2,f,n,nm,'' if n!=1 else 'rpow_three_half _ (by positivity), ',L,'')
            if n==2:
                # numerator: ... * s*( A*s*X + q*Y*(s*t))/den
                k=cv2.index('*s*('); j2=match(cv2,k+3); head=cv2[:k]; inner=cv2[k+4:j2]; den=cv2[j2+1:]
                inner2=inner.replace('*s*','*').replace('(s * t)','t')
                num=cv2[:j2+1]
                prf+='  have hss : s * s = q ^ 2 * (%s) := by rw [hs]; exact Real.mul_self_sqrt (by positivity)\n'%mu
                prf+='  have e2 : %s = %s*(q ^ 2 * (%s))*(%s) := by\n    linear_combination (%s*(%s)) * hss\n'%(num,head,mu,inner2,head,inner2)
                dd='(-(%s ^ 2*q) + q ^ 3)'%y
                assert dd in den,den
                prf+='  rw [e, e2, show -(%s ^ 2*q) + q ^ 3 = -(q * ((%s - q) * (%s + q))) from by ring]\n'%(y,y,y)
            else: prf+='  rw [e]\n'
            prf+='  unfold collA collB\n' if n==2 else '  unfold collA\n' if n==1 else ''
            prf+='  field_simp\n  ring\n'
            o.append('''theorem g2%sColl%d%s_eq (k1 k2 q s t : ℝ) (h1 : 0 < k1) (h2 : 0 < k2) (hq : 0 < q) (hmu : 0 < %s) (hy : q ≠ %s)
    (hs : s = Real.sqrt %s) (ht : t = triLog %s %s) :
    %s = %s := by
%s'''%(f,n,nm,mu,y,m,a,m,lhs,rhs,prf))
    # logs
    for nm,k,o_ in (('A','k1','1'),('B','k2','2')):
        lo,tl=low_tail(c['L'+o_],'k3',6)
        num,den=numden(tl)
        o.append('/-- Part of the coefficient of `LFunc(%s,q)` beyond `kernel_gamma2%s_coll`. -/\ndef g2%sCollT%s (k1 k2 k3 q : ℕ → ℝ) : ℝ :=\n  %s\n'%(k,f,f,nm,wrap('(%s)/(%s)'%(num,den))))
        st=' '.join('%s (k3 / k2) ^ %d * g2%sColl%d%s (pw k1) (pw k2) (pw q)'%(W[nm,n][0],2*n,f,n,nm) for n in range(3)).replace('(k3 / k2) ^ 0 * ','')
        if st.startswith('+ '): st=st[2:]
        elif st.startswith('- '): st='-'+st[2:]
        o.append('''set_option maxHeartbeats 1000000 in
theorem g2%(f)sColl%(nm)s_eq (k1 k2 k3 q : ℝ) (h1 : 0 < k1) (h2 : 0 < k2) (hq : 0 < q) :
    (%(st)s) / (6209280 * k1 ^ 9 * k2 ^ 9 * q ^ 5) =
    (g2%(f)sCL%(i)s %(A)s - k3 ^ 6 * g2%(f)sCollT%(nm)s %(A)s) * LFunc %(k)s q := by
  simp only [g2%(f)sColl0%(nm)s, g2%(f)sColl1%(nm)s, g2%(f)sColl2%(nm)s, g2%(f)sCL%(i)s, g2%(f)sCollT%(nm)s, LFunc, pw, pow_one, C01_power]
  generalize Real.log |(%(k)s + q) / (%(k)s - q)| = l
  field_simp
  ring
'''%dict(C,nm=nm,st=st,i=o_,k=k))
    # polynomials
    # CW1*4 k3 q/((k1^2-q^2)(k2^2-q^2)) has no tail
    R=e0+c['L3']*Lt('k3',5)
    lo,tl=low_tail(R,'k3',6)
    num,den=numden(tl)
    o.append('/-- Rational part of the exact kernel beyond `kernel_gamma2%s_coll`. -/\ndef g2%sCollTP (k1 k2 k3 q : ℕ → ℝ) : ℝ :=\n  %s\n'%(f,f,wrap('(%s)/(%s)'%(num,den))))
    o.append('''set_option maxHeartbeats 2000000 in
theorem g2%(f)sCollP_eq (k1 k2 k3 q : ℝ) (h1 : 0 < k1) (h2 : 0 < k2) (h3 : 0 < k3) (hq : 0 < q) (n1 : q ≠ k1) (n2 : q ≠ k2) :
    (g2%(f)sColl0P (pw k1) (pw k2) (pw q) + (k3 / k2) ^ 2 * g2%(f)sColl1P (pw k1) (pw k2) (pw q) + (k3 / k2) ^ 4 * g2%(f)sColl2P (pw k1) (pw k2) (pw q)) /
      (6209280 * k1 ^ 9 * k2 ^ 9 * q ^ 5) =
    g2%(f)sC0 %(A)s + g2%(f)sCL3 %(A)s * (4 * artSum 5 (k3 / q)) +
      g2%(f)sCW1 %(A)s * (4 * (k3 * q) / ((k1 ^ 2 - q ^ 2) * (k2 ^ 2 - q ^ 2))) - k3 ^ 6 * g2%(f)sCollTP %(A)s := by
  have d1 : k1 ^ 2 - q ^ 2 ≠ 0 := by
    rw [show k1 ^ 2 - q ^ 2 = (k1 - q) * (k1 + q) from by ring]; exact mul_ne_zero (sub_ne_zero.mpr n1.symm) (by positivity)
  have d2 : k2 ^ 2 - q ^ 2 ≠ 0 := by
    rw [show k2 ^ 2 - q ^ 2 = (k2 - q) * (k2 + q) from by ring]; exact mul_ne_zero (sub_ne_zero.mpr n2.symm) (by positivity)
  have e1 : g2%(f)sCW1 %(A)s * (4 * (k3 * q) / ((k1 ^ 2 - q ^ 2) * (k2 ^ 2 - q ^ 2))) =
      %(cw1)s * k3 ^ 4 * (k1 ^ 2 - q ^ 2) * (k2 ^ 2 - q ^ 2) / (k1 ^ 2 * k2 ^ 2 * q ^ 4) := by
    simp only [g2%(f)sCW1, pw, pow_one]
    field_simp
    ring
  rw [e1]
  simp only [artSum, Finset.sum_range_succ, Finset.sum_range_zero]
  push_cast
  simp only [g2%(f)sColl0P, g2%(f)sColl1P, g2%(f)sColl2P, g2%(f)sC0, g2%(f)sCL3, g2%(f)sCollTP, pw, pow_one, C01_power]
  field_simp
  ring
'''%dict(C,cw1='(12 / 4312)' if f=='d' else '(12 / 1078)'))
    # CW2,CW3
    for i,x,y in (('2','k2','k1'),('3','k1','k2')):
        o.append('''theorem g2%(f)sCW%(i)s_coll (k1 k2 k3 q : ℝ) (h1 : 0 < k1) (h2 : 0 < k2) (hq : 0 < q) :
    g2%(f)sCW%(i)s %(A)s = %(x)s * ((%(y)s - q) * (%(y)s + q)) ^ 2 / (7392 * %(y)s ^ 2 * q ^ 5) * (%(c4)d * k3 ^ 4 + %(c2)d * q ^ 2 * k3 ^ 2 + %(c0)d * q ^ 4) := by
  simp only [g2%(f)sCW%(i)s, pw, pow_one]
  field_simp
  ring
'''%dict(C,i=i,x=x,y=y,c4=c4,c2=c2,c0=c0))
    sgs={(nm,n):W[nm,n][0] for nm in('A','B','W3','W2') for n in range(3)}
    ws=''
    for w in '23':
        for n in range(3):
            ws+="  have v%s%d := congrArg (fun z => %sz / (6209280 * k1 ^ 9 * k2 ^ 9 * q ^ 5)) w%s%d\n"%(w,n,'(k3 / k2) ^ %d * '%(2*n) if n else '',w,n)
            ws+="  have f%s%d (z : ℝ) : %s(6209280 * k1 ^ 9 * k2 ^ 9 * q ^ 5 * %sz) / (6209280 * k1 ^ 9 * k2 ^ 9 * q ^ 5) = %sz := by\n    field_simp\n"%(w,n,'(k3 / k2) ^ %d * '%(2*n) if n else '','k2 ^ %d * '%(2*n) if n else '','k3 ^ %d * '%(2*n) if n else '')
            ws+="  simp only [%sf%s%d] at v%s%d\n"%('mul_assoc _ (k2 ^ %d) _ , '%(2*n) if 0 else '',w,n,w,n)
    # main identity
    o.append('''/-- What the expanded exact kernel has beyond `kernel_gamma2%(f)s_coll`, without the factor `k3^6`. -/
def g2%(f)sCollT (k1 k2 k3 q : ℝ) : ℝ :=
  g2%(f)sCollTP %(A)s + g2%(f)sCollTA %(A)s * LFunc k1 q + g2%(f)sCollTB %(A)s * LFunc k2 q +
    k2 * ((k1 - q) * (k1 + q)) ^ 2 / (7392 * k1 ^ 2 * q ^ 5) * (
      %(c4)d * collA ((k1 - q) * (k1 + q)) (k2 * q) (q ^ 2 * (-k1 ^ 2 + k2 ^ 2 + q ^ 2)) q (triLog (k2 * q) (q ^ 2 * (-k1 ^ 2 + k2 ^ 2 + q ^ 2))) +
      (%(c2)d * q ^ 2 + %(c4)d * k3 ^ 2) * collB ((k1 - q) * (k1 + q)) (k2 * q) (q ^ 2 * (-k1 ^ 2 + k2 ^ 2 + q ^ 2)) q (triLog (k2 * q) (q ^ 2 * (-k1 ^ 2 + k2 ^ 2 + q ^ 2)))) +
    k1 * ((k2 - q) * (k2 + q)) ^ 2 / (7392 * k2 ^ 2 * q ^ 5) * (
      %(c4)d * collA ((k2 - q) * (k2 + q)) (k1 * q) (q ^ 2 * (k1 ^ 2 - k2 ^ 2 + q ^ 2)) q (triLog (k1 * q) (q ^ 2 * (k1 ^ 2 - k2 ^ 2 + q ^ 2))) +
      (%(c2)d * q ^ 2 + %(c4)d * k3 ^ 2) * collB ((k2 - q) * (k2 + q)) (k1 * q) (q ^ 2 * (k1 ^ 2 - k2 ^ 2 + q ^ 2)) q (triLog (k1 * q) (q ^ 2 * (k1 ^ 2 - k2 ^ 2 + q ^ 2))))

set_option maxHeartbeats 1000000 in
theorem g2%(f)s_coll_identity (k1 k2 k3 q : ℝ) (h1 : 0 < k1) (h2 : 0 < k2) (h3 : 0 < k3) (hq : 0 < q) (n1 : q ≠ k1) (n2 : q ≠ k2)
    (m2 : 0 < -k1 ^ 2 + k2 ^ 2 + q ^ 2) (m3 : 0 < k1 ^ 2 - k2 ^ 2 + q ^ 2) :
    π * (g2%(f)sC0 %(A)s + g2%(f)sCL1 %(A)s * LFunc k1 q + g2%(f)sCL2 %(A)s * LFunc k2 q + g2%(f)sCL3 %(A)s * (4 * artSum 5 (k3 / q)) +
      g2%(f)sCW1 %(A)s * (4 * (k3 * q) / ((k1 ^ 2 - q ^ 2) * (k2 ^ 2 - q ^ 2))) +
      g2%(f)sCW2 %(A)s * collW ((k1 - q) * (k1 + q)) (k2 * q) (q ^ 2 * (-k1 ^ 2 + k2 ^ 2 + q ^ 2)) q k3 +
      g2%(f)sCW3 %(A)s * collW ((k2 - q) * (k2 + q)) (k1 * q) (q ^ 2 * (k1 ^ 2 - k2 ^ 2 + q ^ 2)) q k3) - g2%(f)sColl k1 k2 k3 q =
    π * (k3 ^ 6 * g2%(f)sCollT k1 k2 k3 q) := by
  have a0 := g2%(f)sCollA_eq k1 k2 k3 q h1 h2 hq
  have b0 := g2%(f)sCollB_eq k1 k2 k3 q h1 h2 hq
  have p0 := g2%(f)sCollP_eq k1 k2 k3 q h1 h2 h3 hq n1 n2
  have w20 := g2%(f)sColl0W2_eq k1 k2 q _ _ h1 h2 hq m2 n1 rfl rfl
  have w21 := g2%(f)sColl1W2_eq k1 k2 q _ _ h1 h2 hq m2 n1 rfl rfl
  have w22 := g2%(f)sColl2W2_eq k1 k2 q _ _ h1 h2 hq m2 n1 rfl rfl
  have w30 := g2%(f)sColl0W3_eq k1 k2 q _ _ h1 h2 hq m3 n2 rfl rfl
  have w31 := g2%(f)sColl1W3_eq k1 k2 q _ _ h1 h2 hq m3 n2 rfl rfl
  have w32 := g2%(f)sColl2W3_eq k1 k2 q _ _ h1 h2 hq m3 n2 rfl rfl
  rw [g2%(f)sCW2_coll k1 k2 k3 q h1 h2 hq, g2%(f)sCW3_coll k1 k2 k3 q h1 h2 hq]
  rw [g2%(f)sColl, g2%(f)sColl0_split, g2%(f)sColl1_split, g2%(f)sColl2_split, g2%(f)sCollT]
  unfold collW
%(ws)s  simp only [show ∀ x n, pw x n = x ^ n from fun _ _ => rfl, show (6.20928e6 : ℝ) = 6209280 from by norm_num]
  linear_combination (-π) * (a0 + b0 + p0 + v20 + v21 + v22 + v30 + v31 + v32)
'''%dict(C,c4=c4,c2=c2,c0=c0,ws=ws))
    # asymptotics
    AP='(pw p.1) (pw p.2.1) (pw p.2.2) (pw q)'
    for nm,R in (('CL3N',c['L3']*V['k3']**5),('CW1N',None)):
        if nm=='CL3N':
            num,den=numden(R)
            o.append('/-- `g2%sCL3` times `k3^5`. -/\ndef g2%sCL3N (k1 k2 k3 q : ℕ → ℝ) : ℝ :=\n  %s\n'%(f,f,wrap('(%s)/(%s)'%(num,den))))
            o.append("theorem g2%(f)sCL3N_eq (k1 k2 k3 q : ℝ) (h1 : 0 < k1) (h2 : 0 < k2) (h3 : 0 < k3) (hq : 0 < q) :\n    g2%(f)sCL3 %(A)s * k3 ^ 11 = g2%(f)sCL3N %(A)s * k3 ^ 6 := by\n  simp only [g2%(f)sCL3, g2%(f)sCL3N, pw, pow_one]\n  field_simp\n"%C)
        else:
            o.append("""/-- `g2%(f)sCW1` divided by `k3^3`. -/
def g2%(f)sCW1N (k1 k2 q : ℝ) : ℝ := 3 * ((k1 ^ 2 - q ^ 2) * (k2 ^ 2 - q ^ 2)) ^ 2 / (%(n)d * k1 ^ 2 * k2 ^ 2 * q ^ 5)

theorem g2%(f)sCW1N_eq (k1 k2 k3 q : ℝ) (h1 : 0 < k1) (h2 : 0 < k2) (hq : 0 < q) :
    g2%(f)sCW1 %(A)s * k3 ^ 3 = g2%(f)sCW1N k1 k2 q * k3 ^ 6 := by
  simp only [g2%(f)sCW1, g2%(f)sCW1N, pw, pow_one]
  field_simp
  ring
"""%dict(C,n=4312 if f=='d' else 1078))
    for nm in ('CL3N','CollTP','CollTA','CollTB','CW2','CW3'):
        o.append("""set_option maxHeartbeats 1000000 in
theorem g2%(f)s%(nm)s_cont (a q : ℝ) (ha : 0 < a) (hq : 0 < q) :
    ContinuousAt (fun p : ℝ × ℝ × ℝ => g2%(f)s%(nm)s %(AP)s) (a, a, 0) := by
  simp only [g2%(f)s%(nm)s, pw]
  exact ContinuousAt.div (by fun_prop) (by fun_prop) (by simp only []; positivity)
"""%dict(C,nm=nm,AP=AP))
    o.append("""theorem g2%(f)sCollT_cont (a q : ℝ) (ha : 0 < a) (hq : 0 < q) (n : q ≠ a) :
    ContinuousAt (fun p : ℝ × ℝ × ℝ => g2%(f)sCollT p.1 p.2.1 p.2.2 q) (a, a, 0) := by
  have c1 : ContinuousAt (fun p : ℝ × ℝ × ℝ => p.1) (a, a, 0) := by fun_prop
  have c2 : ContinuousAt (fun p : ℝ × ℝ × ℝ => p.2.1) (a, a, 0) := by fun_prop
  have c3 : ContinuousAt (fun p : ℝ × ℝ × ℝ => p.2.2) (a, a, 0) := by fun_prop
  obtain ⟨a2, b2⟩ := coll_cont a q (fun p => p.2.1) (fun p => p.1) ha hq n c2 c1 rfl rfl
    (fun p => q ^ 2 * (-p.1 ^ 2 + p.2.1 ^ 2 + q ^ 2)) (fun p => by ring)
  obtain ⟨a3, b3⟩ := coll_cont a q (fun p => p.1) (fun p => p.2.1) ha hq n c1 c2 rfl rfl
    (fun p => q ^ 2 * (p.1 ^ 2 - p.2.1 ^ 2 + q ^ 2)) (fun p => rfl)
  have l1 := cont_LFunc q _ _ c1 ha hq n
  have l2 := cont_LFunc q _ _ c2 ha hq n
  have w2 : ContinuousAt (fun p : ℝ × ℝ × ℝ => p.2.1 * ((p.1 - q) * (p.1 + q)) ^ 2 / (7392 * p.1 ^ 2 * q ^ 5)) (a, a, 0) :=
    ContinuousAt.div (by fun_prop) (by fun_prop) (by simp only []; positivity)
  have w3 : ContinuousAt (fun p : ℝ × ℝ × ℝ => p.1 * ((p.2.1 - q) * (p.2.1 + q)) ^ 2 / (7392 * p.2.1 ^ 2 * q ^ 5)) (a, a, 0) :=
    ContinuousAt.div (by fun_prop) (by fun_prop) (by simp only []; positivity)
  have e : ContinuousAt (fun p : ℝ × ℝ × ℝ => (%(c2)d * q ^ 2 + %(c4)d * p.2.2 ^ 2 : ℝ)) (a, a, 0) := by fun_prop
  unfold g2%(f)sCollT
  exact ((((g2%(f)sCollTP_cont a q ha hq).add ((g2%(f)sCollTA_cont a q ha hq).mul l1)).add ((g2%(f)sCollTB_cont a q ha hq).mul l2)).add
    (w2.mul ((a2.const_mul %(c4)d).add (e.mul b2)))).add (w3.mul ((a3.const_mul %(c4)d).add (e.mul b3)))

/-- **As one side goes to zero**, the exact kernel differs from the one used by the code at order `k3^6`. -/
theorem g2%(f)s_coll (a q : ℝ) (ha : 0 < a) (hq : 0 < q) (n : q ≠ a) :
    (fun p : ℝ × ℝ × ℝ => g2%(f)sExact p.1 p.2.1 p.2.2 q - g2%(f)sColl p.1 p.2.1 p.2.2 q) =O[collF a] fun p => p.2.2 ^ 6 := by
  have c1 : ContinuousAt (fun p : ℝ × ℝ × ℝ => p.1) (a, a, 0) := by fun_prop
  have c2 : ContinuousAt (fun p : ℝ × ℝ × ℝ => p.2.1) (a, a, 0) := by fun_prop
  have c3 : ContinuousAt (fun p : ℝ × ℝ × ℝ => p.2.2) (a, a, 0) := by fun_prop
  have r0 := coll_L3 a q hq
  have r1 := coll_W1 a q ha hq n
  have r2 := coll_W a q (fun p => p.2.1) (fun p => p.1) ha hq n c2 c1 rfl rfl
    (fun p => q ^ 2 * (-p.1 ^ 2 + p.2.1 ^ 2 + q ^ 2)) (fun p => by ring)
  have r3 := coll_W a q (fun p => p.1) (fun p => p.2.1) ha hq n c1 c2 rfl rfl
    (fun p => q ^ 2 * (p.1 ^ 2 - p.2.1 ^ 2 + q ^ 2)) (fun p => rfl)
  have cw1 : ContinuousAt (fun p : ℝ × ℝ × ℝ => g2%(f)sCW1N p.1 p.2.1 q) (a, a, 0) := by
    unfold g2%(f)sCW1N
    exact ContinuousAt.div (by fun_prop) (by fun_prop) (by simp only []; positivity)
  have k6 := isBigO_refl (fun p : ℝ × ℝ × ℝ => p.2.2 ^ 6) (collF a)
  have s0 := (collF_one (g2%(f)sCL3N_cont a q ha hq)).mul k6
  have s1 := (collF_one cw1).mul k6
  have s2 := (collF_one (g2%(f)sCW2_cont a q ha hq)).mul r2
  have s3 := (collF_one (g2%(f)sCW3_cont a q ha hq)).mul r3
  have s4 := (collF_one (g2%(f)sCollT_cont a q ha hq n)).mul k6
  simp only [one_mul] at s0 s1 s2 s3 s4
  have t0 : (fun p : ℝ × ℝ × ℝ => g2%(f)sCL3 %(AP)s * (LFunc p.2.2 q - 4 * artSum 5 (p.2.2 / q))) =O[collF a] fun p => p.2.2 ^ 6 := by
    refine ((isBigO_refl _ _).mul r0).trans (s0.congr' ?_ EventuallyEq.rfl)
    filter_upwards [collF_tri a] with p ht
    exact (g2%(f)sCL3N_eq _ _ _ _ ht.pos1 ht.pos2 ht.pos3 hq).symm
  have t1 : (fun p : ℝ × ℝ × ℝ => g2%(f)sCW1 %(AP)s * (triLog (p.2.2 * q) (triM p.1 p.2.1 p.2.2 q) -
      4 * (p.2.2 * q) / ((p.1 ^ 2 - q ^ 2) * (p.2.1 ^ 2 - q ^ 2)))) =O[collF a] fun p => p.2.2 ^ 6 := by
    refine ((isBigO_refl _ _).mul r1).trans (s1.congr' ?_ EventuallyEq.rfl)
    filter_upwards [collF_tri a] with p ht
    exact (g2%(f)sCW1N_eq _ _ _ _ ht.pos1 ht.pos2 hq).symm
  refine (((((t0.add t1).add s2).add s3).add s4).const_mul_left π).congr' ?_ EventuallyEq.rfl
  have e1 : ∀ᶠ p in collF a, p.1 ≠ q := collF_ev (c1.eventually_ne n.symm)
  have e2 : ∀ᶠ p in collF a, p.2.1 ≠ q := collF_ev (c2.eventually_ne n.symm)
  have e3 : ∀ᶠ p in collF a, p.2.2 ≠ q := collF_ev (c3.eventually_ne hq.ne)
  have m2 : ∀ᶠ p in collF a, 0 < -p.1 ^ 2 + p.2.1 ^ 2 + q ^ 2 :=
    collF_ev ((show ContinuousAt (fun p : ℝ × ℝ × ℝ => -p.1 ^ 2 + p.2.1 ^ 2 + q ^ 2) (a, a, 0) by fun_prop).eventually
      (lt_mem_nhds (show 0 < -a ^ 2 + a ^ 2 + q ^ 2 by rw [neg_add_cancel, zero_add]; positivity)))
  have m3 : ∀ᶠ p in collF a, 0 < p.1 ^ 2 - p.2.1 ^ 2 + q ^ 2 :=
    collF_ev ((show ContinuousAt (fun p : ℝ × ℝ × ℝ => p.1 ^ 2 - p.2.1 ^ 2 + q ^ 2) (a, a, 0) by fun_prop).eventually
      (lt_mem_nhds (show 0 < a ^ 2 - a ^ 2 + q ^ 2 by rw [sub_self, zero_add]; positivity)))
  filter_upwards [collF_tri a, e1, e2, e3, m2, m3] with p ht n1 n2 n3 hm2 hm3
  have hI := g2%(f)s_coll_identity p.1 p.2.1 p.2.2 q ht.pos1 ht.pos2 ht.pos3 hq n1.symm n2.symm hm2 hm3
  rw [g2%(f)sExact_form p.1 p.2.1 p.2.2 q ht hq n1.symm n2.symm n3.symm]
  linear_combination -hI
"""%dict(C,c2=c2,c4=c4,AP=AP))
    return '\n'.join(o),sgs
head='''import Verif.Proofs.TriTaylor

/-!
# The second-order loop kernels for a short third side

Pieces and remainders found by `tools/g2limits` and checked here.
-/

set_option linter.unusedSimpArgs false
set_option linter.unusedVariables false

namespace Verif

noncomputable section

open Real Asymptotics Filter Topology

/-- Coefficient of `k3²` in the expansion of `triLog`. -/
def collA (d a m q t : ℝ) : ℝ := -(d * t / (2 * m)) + 2 * a / (m * q ^ 2)

/-- Coefficient of `k3⁴` in the expansion of `triLog`. -/
def collB (d a m q t : ℝ) : ℝ := 3 * d ^ 2 * t / (8 * m ^ 2) - 3 * a * d / (2 * m ^ 2 * q ^ 2) + a / (m * q ^ 4)

/-- The expansion of `triLog` to order `k3⁴`. -/
def collW (d a m q x : ℝ) : ℝ := triLog a m + x ^ 2 * collA d a m q (triLog a m) + x ^ 4 * collB d a m q (triLog a m)

theorem coll_tri1 (d a m q e : ℝ) (hm : m ≠ 0) (hq : q ≠ 0) (hd : d ≠ 0) (h : m - a ^ 2 = -(q ^ 2 * d)) :
    e * d * tri1 a m = e * collA d a m q (triLog a m) := by
  rw [tri1, collA, h]
  generalize triLog a m = t
  field_simp
  ring

theorem coll_tri2 (d a m q e : ℝ) (hm : m ≠ 0) (hq : q ≠ 0) (hd : d ≠ 0) (h : m - a ^ 2 = -(q ^ 2 * d)) :
    (e * d) ^ 2 / 2 * tri2 a m = e ^ 2 * collB d a m q (triLog a m) := by
  have h2 : 2 * m - a ^ 2 = m - q ^ 2 * d := by linear_combination h
  rw [tri2, tri1, collB, h2, h]
  generalize triLog a m = t
  field_simp
  ring

theorem rpow_three_half (x : ℝ) (hx : 0 < x) : x ^ (1.5 : ℝ) = x * Real.sqrt x := by
  rw [show (1.5 : ℝ) = 1 + 1 / 2 from by norm_num, Real.rpow_add hx, Real.rpow_one, Real.sqrt_eq_rpow]

theorem collLog (k1 k2 q : ℝ) (h1 : 0 < k1) (h2 : 0 < k2) (hq : 0 < q) (hmu : 0 < k1 ^ 2 - k2 ^ 2 + q ^ 2) (hy : q ≠ k2) :
    Real.log ((2*k1 ^ 2*q - k2 ^ 2*q + q ^ 3 + 2*k1*(Real.sqrt (q ^ 2*(k1 ^ 2 - k2 ^ 2 + q ^ 2)))) /
      (2*k1 ^ 2*q - k2 ^ 2*q + q ^ 3 - 2*k1*(Real.sqrt (q ^ 2*(k1 ^ 2 - k2 ^ 2 + q ^ 2))))) =
    Real.sqrt (q ^ 2*(k1 ^ 2 - k2 ^ 2 + q ^ 2)) * triLog (k1 * q) (q ^ 2*(k1 ^ 2 - k2 ^ 2 + q ^ 2)) := by
  have hs0 : 0 < Real.sqrt (q ^ 2*(k1 ^ 2 - k2 ^ 2 + q ^ 2)) := Real.sqrt_pos.mpr (by positivity)
  have hss : Real.sqrt (q ^ 2*(k1 ^ 2 - k2 ^ 2 + q ^ 2)) ^ 2 = q ^ 2*(k1 ^ 2 - k2 ^ 2 + q ^ 2) := Real.sq_sqrt (by positivity)
  rw [triLog]
  generalize Real.sqrt (q ^ 2*(k1 ^ 2 - k2 ^ 2 + q ^ 2)) = s at *
  have hsa : s - k1 * q ≠ 0 := by
    intro h0
    have : s = k1 * q := by linarith
    rw [this] at hss
    have h3 : q ^ 2 * ((q - k2) * (q + k2)) = 0 := by linear_combination -hss
    rcases mul_eq_zero.mp h3 with h4 | h4
    · exact hq.ne' (pow_eq_zero_iff (by norm_num) |>.mp h4)
    · rcases mul_eq_zero.mp h4 with h5 | h5
      · exact hy (by linarith)
      · linarith
  have e1 : 2*k1 ^ 2*q - k2 ^ 2*q + q ^ 3 + 2*k1*s = (s + k1 * q) ^ 2 / q := by
    rw [eq_div_iff hq.ne']; linear_combination -hss
  have e2 : 2*k1 ^ 2*q - k2 ^ 2*q + q ^ 3 - 2*k1*s = (s - k1 * q) ^ 2 / q := by
    rw [eq_div_iff hq.ne']; linear_combination -hss
  rw [e1, e2, div_div_div_cancel_right₀ hq.ne', ← div_pow, ← Real.log_abs, abs_pow, Real.log_pow]
  push_cast
  field_simp

theorem collLog' (k1 k2 q : ℝ) (h1 : 0 < k1) (h2 : 0 < k2) (hq : 0 < q) (hmu : 0 < -k1 ^ 2 + k2 ^ 2 + q ^ 2) (hy : q ≠ k1) :
    Real.log (-((-(k1 ^ 2*q) + 2*k2 ^ 2*q + q ^ 3 + 2*k2*(Real.sqrt (q ^ 2*(-k1 ^ 2 + k2 ^ 2 + q ^ 2)))) /
      (k1 ^ 2*q - 2*k2 ^ 2*q - q ^ 3 + 2*k2*(Real.sqrt (q ^ 2*(-k1 ^ 2 + k2 ^ 2 + q ^ 2)))))) =
    Real.sqrt (q ^ 2*(-k1 ^ 2 + k2 ^ 2 + q ^ 2)) * triLog (k2 * q) (q ^ 2*(-k1 ^ 2 + k2 ^ 2 + q ^ 2)) := by
  have e : -k1 ^ 2 + k2 ^ 2 + q ^ 2 = k2 ^ 2 - k1 ^ 2 + q ^ 2 := by ring
  rw [e] at hmu ⊢
  rw [← collLog k2 k1 q h2 h1 hq hmu hy, ← div_neg]
  congr 2 <;> ring

'''
hd='''import Verif.Proofs.TriColl

/-!
# The second-order loop kernel of the %s for a short third side

Pieces and remainders found by `tools/g2limits` and checked here.
-/

set_option linter.unusedSimpArgs false
set_option linter.unusedVariables false

namespace Verif

noncomputable section

open Real Asymptotics Filter Topology

'''
if __name__=='__main__':
    for f in sys.argv[1]:
        b,sgs=gen(f)
        open('/verif/lean/Verif/Proofs/Gamma2Coll%s.lean'%f.upper(),'w').write(hd%('density' if f=='d' else 'velocity divergence')+b+'\nend\n\nend Verif\n')
