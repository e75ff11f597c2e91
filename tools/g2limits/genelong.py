import sys,re;
from gencoll import *
FAC={'d':'(2 * k3 ^ 4 + 7 * k3 ^ 2 * q ^ 2 - 9 * q ^ 4)','t':'(8 * k3 ^ 4 - 5 * k3 ^ 2 * q ^ 2 - 3 * q ^ 4)'}
NN={'d':4312,'t':1078}
def gen(f):
    o=[]; e0,c=data(f)
    C=dict(f=f,A=AR)
    pre,ts,post=elong(f)
    assert [s for s,_ in ts]==['+','-','-','-','+','+','+']
    last=ts[-1][1]; j=match(last,0); assert last[j+1:]=='/eps 2'
    us=terms(last[1:j]); assert [s for s,_ in us]==['+','+','-','+','-','+']
    where='src/gamma2%s_1loop.c:%s'%(f,'260-365' if f=='d' else '242-349')
    def d(nm,txt,what): o.append('/-- %s of `kernel_gamma2%s_elongate` (`%s`). -/\ndef g2%sElong%s (k k3 q : ℕ → ℝ) : ℝ :=\n  %s\n'%(what,f,where,f,nm,wrap(txt)))
    names=['A','B','V','X']; whats=['The logarithm of `k`','The logarithm of `k3`','The logarithm with `k²-k3²+q²`','The logarithm with `k3²-k²+q²`']
    d('0P',ts[0][1]+' - '+ts[1][1],'The polynomials of the constant part')
    d('1P',us[0][1]+' + '+us[1][1],'The polynomials of the part divided by `eps²`')
    T={}
    for n,l,off in ((0,ts,2),(1,us,2)):
        for i,(nm,wh) in enumerate(zip(names,whats)):
            T[nm,n]=l[off+i]; d('%d%s'%(n,nm),l[off+i][1],wh+(', constant part' if n==0 else ', part divided by `eps²`'))
    g=lambda n:'g2%sElong%dP k k3 q'%(f,n)+''.join(' %s g2%sElong%d%s k k3 q'%(T[nm,n][0],f,n,nm) for nm in names)
    o.append('theorem g2%sElong_split (k eps k3 q : ℕ → ℝ) : g2%sElongateE k eps k3 q =\n    %s(%s + (%s)/eps 2)%s := rfl\n'%(f,f,pre,g(0),g(1),post))
    AE='(pw k1) (pw k3) (pw q)'
    D='(6209280 * k1 ^ 18 * q ^ 5)'
    # W pieces
    for nm,x,y,mu,cc in (('V','k1','k3','k1 ^ 2 - k3 ^ 2 + q ^ 2','(k1 * %s / (7392 * q ^ 5))'%FAC[f]),('X','k3','k1','-k1 ^ 2 + k3 ^ 2 + q ^ 2','(3 * k3 ^ 3 * ((k1 - q) * (k1 + q)) ^ 2 / (%d * k1 ^ 2 * q ^ 5))'%NN[f])):
        m='(q ^ 2 * (%s))'%mu; a='(%s * q)'%x; dd='((%s - q) * (%s + q))'%(y,y)
        al='collA %s %s %s q t'%(dd,a,m)
        for n in range(2):
            sg,txt=T[nm,n]
            cv=re.sub(r'\bk\b','k1',conv(txt))
            sq='(Real.sqrt (q ^ 2*(%s)))'%mu
            assert sq in cv
            i=cv.index('(Real.log '); j=match(cv,i); lg=cv[i:j+1]
            cv2=cv.replace(lg,'(s * t)').replace(sq,'s')
            rp='((q ^ 2*(%s))^(1.5:ℝ))'%mu
            if n==0: assert rp in cv2; cv2=cv2.replace(rp,'(q ^ 2 * (%s) * s)'%mu)
            rhs={0:'%s * (%s * (-2 * q ^ 2 * t + q ^ 4 * %s))'%(D,cc,al),1:'%s * (%s * (q ^ 4 * t))'%(D,cc)}[n]
            lhs=('-' if sg=='-' else '')+'g2%sElong%d%s %s'%(f,n,nm,AE)
            if n==1: lhs='k1 ^ 2 * (%s)'%lhs
            L='collLog' if nm=='V' else "collLog'"
            prf='''  have hs0 : 0 < s := by rw [hs]; exact Real.sqrt_pos.mpr (by positivity)
  have hm : %s ≠ 0 := hmu.ne'
  have d1 : %s - q ≠ 0 := sub_ne_zero.mpr hy.symm
  have d2 : %s + q ≠ 0 := by positivity
'''%(mu,y,y)
            prf+='  have e : g2%sElong%d%s %s = %s := by\n    simp only [g2%sElong%d%s, pw, pow_one, C01_power]\n    rw [%s%s k1 k3 q h1 h3 hq hmu hy, ← hs, ← ht]\n'%(f,n,nm,AE,cv2,f,n,nm,'' if n!=0 else 'rpow_three_half _ (by positivity), ',L)
            prf+='  rw [e]\n'+('  unfold collA\n' if n==0 else '')+'  field_simp\n  ring\n'
            o.append('''theorem g2%sElong%d%s_eq (k1 k3 q s t : ℝ) (h1 : 0 < k1) (h3 : 0 < k3) (hq : 0 < q) (hmu : 0 < %s) (hy : q ≠ %s)
    (hs : s = Real.sqrt %s) (ht : t = triLog %s %s) :
    %s = %s := by
%s'''%(f,n,nm,mu,y,m,a,m,lhs,rhs,prf))
    S=lambda nm:('-' if T[nm,0][0]=='-' else '')+'g2%sElong0%s %s'%(f,nm,AE)+' %s k1 ^ 2 / k2 ^ 2 * g2%sElong1%s %s'%(T[nm,1][0],f,nm,AE)
    for nm,k,o_ in (('A','k1','1'),('B','k3','3')):
        lo,tl=low_tail(c['L'+o_],'k2',2)
        num,den=numden(tl)
        o.append('/-- Part of the coefficient of `LFunc(%s,q)` beyond `kernel_gamma2%s_elongate`. -/\ndef g2%sElongT%s (k1 k2 k3 q : ℕ → ℝ) : ℝ :=\n  %s\n'%(k,f,f,nm,wrap('(%s)/(%s)'%(num,den))))
        o.append('''set_option maxHeartbeats 1000000 in
theorem g2%(f)sElong%(nm)s_eq (k1 k2 k3 q : ℝ) (h1 : 0 < k1) (h2 : 0 < k2) (h3 : 0 < k3) (hq : 0 < q) :
    (%(st)s) / %(D)s =
    (g2%(f)sCL%(i)s %(A)s - k2 ^ 2 * g2%(f)sElongT%(nm)s %(A)s) * LFunc %(k)s q := by
  simp only [g2%(f)sElong0%(nm)s, g2%(f)sElong1%(nm)s, g2%(f)sCL%(i)s, g2%(f)sElongT%(nm)s, LFunc, pw, pow_one, C01_power]
  generalize Real.log |(%(k)s + q) / (%(k)s - q)| = l
  field_simp
  ring
'''%dict(C,nm=nm,st=S(nm),i=o_,k=k,D=D))
    R=e0+c['L2']*Lt('k2',5)
    lo,tl=low_tail(R,'k2',2)
    print(f,'low exponents',{k[P.names.index('k2')] for k in lo.d})
    num,den=numden(tl)
    o.append('/-- Rational part of the exact kernel beyond `kernel_gamma2%s_elongate`. -/\ndef g2%sElongTP (k1 k2 k3 q : ℕ → ℝ) : ℝ :=\n  %s\n'%(f,f,wrap('(%s)/(%s)'%(num,den))))
    o.append('''set_option maxHeartbeats 2000000 in
theorem g2%(f)sElongP_eq (k1 k2 k3 q : ℝ) (h1 : 0 < k1) (h2 : 0 < k2) (h3 : 0 < k3) (hq : 0 < q) :
    (g2%(f)sElong0P %(AE)s + k1 ^ 2 / k2 ^ 2 * g2%(f)sElong1P %(AE)s) / %(D)s =
    g2%(f)sC0 %(A)s + g2%(f)sCL2 %(A)s * (4 * artSum 5 (k2 / q)) - k2 ^ 2 * g2%(f)sElongTP %(A)s := by
  simp only [artSum, Finset.sum_range_succ, Finset.sum_range_zero]
  push_cast
  simp only [g2%(f)sElong0P, g2%(f)sElong1P, g2%(f)sC0, g2%(f)sCL2, g2%(f)sElongTP, pw, pow_one, C01_power]
  field_simp
  ring
'''%dict(C,AE=AE,D=D))
    cx='3 * k3 ^ 3 * ((k1 - q) * (k1 + q)) ^ 2 / (%d * k1 ^ 2 * q ^ 5)'%NN[f]; cvv='k1 * %s / (7392 * q ^ 5)'%FAC[f]
    tx='(triLog (k3 * q) (q ^ 2 * (-k1 ^ 2 + k3 ^ 2 + q ^ 2)))'; tv='(triLog (k1 * q) (q ^ 2 * (k1 ^ 2 - k3 ^ 2 + q ^ 2)))'
    ax='collA ((k1 - q) * (k1 + q)) (k3 * q) (q ^ 2 * (-k1 ^ 2 + k3 ^ 2 + q ^ 2)) q '+tx; av='collA ((k3 - q) * (k3 + q)) (k1 * q) (q ^ 2 * (k1 ^ 2 - k3 ^ 2 + q ^ 2)) q '+tv
    ws=''
    for nm in 'VX':
        ws+='  have v%s0 := congrArg (fun z => z / %s) w%s0\n  have v%s1 := congrArg (fun z => z / k2 ^ 2 / %s) w%s1\n'%(nm,D,nm,nm,D,nm)
        ws+='  simp only [f0] at v%s0\n  simp only [f1] at v%s1\n'%(nm,nm)
    o.append('''theorem g2%(f)sCW1_elong (k1 k2 k3 q : ℝ) (h1 : 0 < k1) (h2 : 0 < k2) (hq : 0 < q) :
    g2%(f)sCW1 %(A)s = %(cx)s * (q ^ 4 / k2 ^ 2 - 2 * q ^ 2 + k2 ^ 2) := by
  simp only [g2%(f)sCW1, pw, pow_one]
  field_simp
  ring

theorem g2%(f)sCW3_elong (k1 k2 k3 q : ℝ) (h2 : 0 < k2) (hq : 0 < q) :
    g2%(f)sCW3 %(A)s = %(cv)s * (q ^ 4 / k2 ^ 2 - 2 * q ^ 2 + k2 ^ 2) := by
  simp only [g2%(f)sCW3, pw, pow_one]
  field_simp
  ring

/-- What the expanded exact kernel has beyond `kernel_gamma2%(f)s_elongate`, without the factor `k2^2`. -/
def g2%(f)sElongT (k1 k2 k3 q : ℝ) : ℝ :=
  g2%(f)sElongTP %(A)s + g2%(f)sElongTA %(A)s * LFunc k1 q + g2%(f)sElongTB %(A)s * LFunc k3 q +
    %(cx)s * (%(tx)s + (-2 * q ^ 2 + k2 ^ 2) * %(ax)s) +
    %(cv)s * (%(tv)s + (-2 * q ^ 2 + k2 ^ 2) * %(av)s)

set_option maxHeartbeats 1000000 in
theorem g2%(f)s_elong_identity (k1 k2 k3 q : ℝ) (h1 : 0 < k1) (h2 : 0 < k2) (h3 : 0 < k3) (hq : 0 < q) (n1 : q ≠ k1) (n3 : q ≠ k3)
    (mx : 0 < -k1 ^ 2 + k3 ^ 2 + q ^ 2) (mv : 0 < k1 ^ 2 - k3 ^ 2 + q ^ 2) :
    π * (g2%(f)sC0 %(A)s + g2%(f)sCL1 %(A)s * LFunc k1 q + g2%(f)sCL2 %(A)s * (4 * artSum 5 (k2 / q)) + g2%(f)sCL3 %(A)s * LFunc k3 q +
      g2%(f)sCW1 %(A)s * elongW ((k1 - q) * (k1 + q)) (k3 * q) (q ^ 2 * (-k1 ^ 2 + k3 ^ 2 + q ^ 2)) q k2 +
      g2%(f)sCW3 %(A)s * elongW ((k3 - q) * (k3 + q)) (k1 * q) (q ^ 2 * (k1 ^ 2 - k3 ^ 2 + q ^ 2)) q k2) -
      g2%(f)sElongateE (pw k1) (pw (k2 / k1)) (pw k3) (pw q) =
    π * (k2 ^ 2 * g2%(f)sElongT k1 k2 k3 q) := by
  have a0 := g2%(f)sElongA_eq k1 k2 k3 q h1 h2 h3 hq
  have b0 := g2%(f)sElongB_eq k1 k2 k3 q h1 h2 h3 hq
  have p0 := g2%(f)sElongP_eq k1 k2 k3 q h1 h2 h3 hq
  have wX0 := g2%(f)sElong0X_eq k1 k3 q _ _ h1 h3 hq mx n1 rfl rfl
  have wX1 := g2%(f)sElong1X_eq k1 k3 q _ _ h1 h3 hq mx n1 rfl rfl
  have wV0 := g2%(f)sElong0V_eq k1 k3 q _ _ h1 h3 hq mv n3 rfl rfl
  have wV1 := g2%(f)sElong1V_eq k1 k3 q _ _ h1 h3 hq mv n3 rfl rfl
  have f0 (z : ℝ) : %(D)s * z / %(D)s = z := by
    field_simp
  have f1 (z : ℝ) : %(D)s * z / k2 ^ 2 / %(D)s = z / k2 ^ 2 := by
    field_simp
%(ws)s  rw [g2%(f)sCW1_elong k1 k2 k3 q h1 h2 hq, g2%(f)sCW3_elong k1 k2 k3 q h2 hq, g2%(f)sElong_split, g2%(f)sElongT]
  unfold elongW
  have e2 : pw (k2 / k1) 2 = k2 ^ 2 / k1 ^ 2 := by simp only [pw, div_pow]
  have e3 (z : ℝ) : z / (k2 ^ 2 / k1 ^ 2) = k1 ^ 2 / k2 ^ 2 * z := by rw [div_div_eq_mul_div]; ring
  rw [e2, e3]
  have e4 : k2 ^ 2 / k2 ^ 2 = 1 := div_self (by positivity)
  simp only [show ∀ x n, pw x n = x ^ n from fun _ _ => rfl, show (6.20928e6 : ℝ) = 6209280 from by norm_num]
  linear_combination (-π) * (a0 + b0 + p0 + vX0 + vX1 + vV0 + vV1) + π * q ^ 4 * (%(cx)s * %(ax)s + %(cv)s * %(av)s) * e4
'''%dict(C,cx='('+cx+')',cv='('+cvv+')',tx=tx,tv=tv,ax=ax,av=av,D=D,ws=ws))
    AP='(pw p.1) (pw p.2.1) (pw p.2.2) (pw q)'
    num,den=numden(c['L2']*V['k2']**9)
    o.append('/-- `g2%sCL2` times `k2^9`. -/\ndef g2%sCL2N (k1 k2 k3 q : ℕ → ℝ) : ℝ :=\n  %s\n'%(f,f,wrap('(%s)/(%s)'%(num,den))))
    o.append('''theorem g2%(f)sCL2N_eq (k1 k2 k3 q : ℝ) (h1 : 0 < k1) (h2 : 0 < k2) (h3 : 0 < k3) (hq : 0 < q) :
    g2%(f)sCL2 %(A)s * k2 ^ 11 = g2%(f)sCL2N %(A)s * k2 ^ 2 := by
  simp only [g2%(f)sCL2, g2%(f)sCL2N, pw, pow_one]
  field_simp
  try ring

/-- `g2%(f)sCW2` divided by `k2`. -/
def g2%(f)sCW2N (k1 k3 q : ℝ) : ℝ := (k1 ^ 2 - q ^ 2) ^ 2 * %(fac)s / (7392 * k1 ^ 2 * q ^ 5)

theorem g2%(f)sCW2N_eq (k1 k2 k3 q : ℝ) (h1 : 0 < k1) (hq : 0 < q) :
    g2%(f)sCW2 %(A)s * k2 = g2%(f)sCW2N k1 k3 q * k2 ^ 2 := by
  simp only [g2%(f)sCW2, g2%(f)sCW2N, pw, pow_one]
  field_simp
  ring
'''%dict(C,fac=FAC[f]))
    for nm in ('CL2N','ElongTP','ElongTA','ElongTB'):
        o.append("""set_option maxHeartbeats 1000000 in
theorem g2%(f)s%(nm)s_elong (a q : ℝ) (ha : 0 < a) (hq : 0 < q) :
    ContinuousAt (fun p : ℝ × ℝ × ℝ => g2%(f)s%(nm)s %(AP)s) (a, 0, a) := by
  simp only [g2%(f)s%(nm)s, pw]
  exact ContinuousAt.div (by fun_prop) (by fun_prop) (by positivity)
"""%dict(C,nm=nm,AP=AP))
    tr=lambda z:z.replace('k1','p.1').replace('k2','p.2.1').replace('k3','p.2.2')
    o.append('''theorem g2%(f)sElongT_cont (a q : ℝ) (ha : 0 < a) (hq : 0 < q) (n : q ≠ a) :
    ContinuousAt (fun p : ℝ × ℝ × ℝ => g2%(f)sElongT p.1 p.2.1 p.2.2 q) (a, 0, a) := by
  have c1 : ContinuousAt (fun p : ℝ × ℝ × ℝ => p.1) (a, 0, a) := by fun_prop
  have c3 : ContinuousAt (fun p : ℝ × ℝ × ℝ => p.2.2) (a, 0, a) := by fun_prop
  obtain ⟨ax, tx⟩ := elong_cont a q (fun p => p.2.2) (fun p => p.1) ha hq n c3 c1 rfl rfl
    (fun p => q ^ 2 * (-p.1 ^ 2 + p.2.2 ^ 2 + q ^ 2)) (fun p => by ring)
  obtain ⟨av, tv⟩ := elong_cont a q (fun p => p.1) (fun p => p.2.2) ha hq n c1 c3 rfl rfl
    (fun p => q ^ 2 * (p.1 ^ 2 - p.2.2 ^ 2 + q ^ 2)) (fun p => rfl)
  have l1 := cont_LFunc q _ _ c1 ha hq n
  have l3 := cont_LFunc q _ _ c3 ha hq n
  have wx : ContinuousAt (fun p : ℝ × ℝ × ℝ => %(cx)s) (a, 0, a) :=
    ContinuousAt.div (by fun_prop) (by fun_prop) (by positivity)
  have wv : ContinuousAt (fun p : ℝ × ℝ × ℝ => %(cv)s) (a, 0, a) :=
    ContinuousAt.div (by fun_prop) (by fun_prop) (by positivity)
  have e : ContinuousAt (fun p : ℝ × ℝ × ℝ => (-2 * q ^ 2 + p.2.1 ^ 2 : ℝ)) (a, 0, a) := by fun_prop
  unfold g2%(f)sElongT
  exact ((((g2%(f)sElongTP_elong a q ha hq).add ((g2%(f)sElongTA_elong a q ha hq).mul l1)).add ((g2%(f)sElongTB_elong a q ha hq).mul l3)).add
    (wx.mul (tx.add (e.mul ax)))).add (wv.mul (tv.add (e.mul av)))

/-- **As the second side goes to zero**, the exact kernel differs from the one used by the code at order `k2^2`. -/
theorem g2%(f)s_elong (a q : ℝ) (ha : 0 < a) (hq : 0 < q) (n : q ≠ a) :
    (fun p : ℝ × ℝ × ℝ => g2%(f)sExact p.1 p.2.1 p.2.2 q - g2%(f)sElongate p.1 p.2.1 p.2.2 q) =O[elongF a] fun p => p.2.1 ^ 2 := by
  have c1 : ContinuousAt (fun p : ℝ × ℝ × ℝ => p.1) (a, 0, a) := by fun_prop
  have c2 : ContinuousAt (fun p : ℝ × ℝ × ℝ => p.2.1) (a, 0, a) := by fun_prop
  have c3 : ContinuousAt (fun p : ℝ × ℝ × ℝ => p.2.2) (a, 0, a) := by fun_prop
  have r0 := elong_L2 a q hq
  have r2 := elong_W2 a q ha hq n
  have rx := elong_W a q (fun p => p.2.2) (fun p => p.1) ha hq n c3 c1 rfl rfl
    (fun p => q ^ 2 * (-p.1 ^ 2 + p.2.2 ^ 2 + q ^ 2)) (fun p => by ring)
  have rv := elong_W a q (fun p => p.1) (fun p => p.2.2) ha hq n c1 c3 rfl rfl
    (fun p => q ^ 2 * (p.1 ^ 2 - p.2.2 ^ 2 + q ^ 2)) (fun p => rfl)
  have cw2 : ContinuousAt (fun p : ℝ × ℝ × ℝ => g2%(f)sCW2N p.1 p.2.2 q) (a, 0, a) := by
    unfold g2%(f)sCW2N
    exact ContinuousAt.div (by fun_prop) (by fun_prop) (by positivity)
  have wx : ContinuousAt (fun p : ℝ × ℝ × ℝ => %(cx)s * (q ^ 4 - 2 * q ^ 2 * p.2.1 ^ 2 + p.2.1 ^ 4)) (a, 0, a) :=
    (ContinuousAt.div (by fun_prop) (by fun_prop) (by positivity)).mul (by fun_prop)
  have wv : ContinuousAt (fun p : ℝ × ℝ × ℝ => %(cv)s * (q ^ 4 - 2 * q ^ 2 * p.2.1 ^ 2 + p.2.1 ^ 4)) (a, 0, a) :=
    (ContinuousAt.div (by fun_prop) (by fun_prop) (by positivity)).mul (by fun_prop)
  have k2 := isBigO_refl (fun p : ℝ × ℝ × ℝ => p.2.1 ^ 2) (elongF a)
  have s0 := (elongF_one (g2%(f)sCL2N_elong a q ha hq)).mul k2
  have s2 := (elongF_one cw2).mul k2
  have sx := (elongF_one wx).mul k2
  have sv := (elongF_one wv).mul k2
  have s4 := (elongF_one (g2%(f)sElongT_cont a q ha hq n)).mul k2
  simp only [one_mul] at s0 s2 sx sv s4
  have t0 : (fun p : ℝ × ℝ × ℝ => g2%(f)sCL2 %(AP)s * (LFunc p.2.1 q - 4 * artSum 5 (p.2.1 / q))) =O[elongF a] fun p => p.2.1 ^ 2 := by
    refine ((isBigO_refl _ _).mul r0).trans (s0.congr' ?_ EventuallyEq.rfl)
    filter_upwards [elongF_tri a] with p ht
    exact (g2%(f)sCL2N_eq _ _ _ _ ht.pos1 ht.pos2 ht.pos3 hq).symm
  have t2 : (fun p : ℝ × ℝ × ℝ => g2%(f)sCW2 %(AP)s * triLog (p.2.1 * q) (triM p.1 p.2.2 p.2.1 q)) =O[elongF a] fun p => p.2.1 ^ 2 := by
    refine ((isBigO_refl _ _).mul r2).trans (s2.congr' ?_ EventuallyEq.rfl)
    filter_upwards [elongF_tri a] with p ht
    exact (g2%(f)sCW2N_eq _ _ _ _ ht.pos1 hq).symm
  have tx : (fun p : ℝ × ℝ × ℝ => g2%(f)sCW1 %(AP)s * (triLog (p.2.2 * q) (triM p.1 p.2.1 p.2.2 q) -
      elongW ((p.1 - q) * (p.1 + q)) (p.2.2 * q) (q ^ 2 * (-p.1 ^ 2 + p.2.2 ^ 2 + q ^ 2)) q p.2.1)) =O[elongF a] fun p => p.2.1 ^ 2 := by
    refine ((isBigO_refl _ _).mul rx).trans (sx.congr' ?_ EventuallyEq.rfl)
    filter_upwards [elongF_tri a] with p ht
    rw [g2%(f)sCW1_elong _ _ _ _ ht.pos1 ht.pos2 hq]
    have := ht.pos2.ne'
    have := ht.pos1.ne'
    field_simp
  have tv : (fun p : ℝ × ℝ × ℝ => g2%(f)sCW3 %(AP)s * (triLog (p.1 * q) (triM p.2.2 p.2.1 p.1 q) -
      elongW ((p.2.2 - q) * (p.2.2 + q)) (p.1 * q) (q ^ 2 * (p.1 ^ 2 - p.2.2 ^ 2 + q ^ 2)) q p.2.1)) =O[elongF a] fun p => p.2.1 ^ 2 := by
    refine ((isBigO_refl _ _).mul rv).trans (sv.congr' ?_ EventuallyEq.rfl)
    filter_upwards [elongF_tri a] with p ht
    rw [g2%(f)sCW3_elong _ _ _ _ ht.pos2 hq]
    have := ht.pos2.ne'
    field_simp
  refine (((((t0.add tx).add t2).add tv).add s4).const_mul_left π).congr' ?_ EventuallyEq.rfl
  have e1 : ∀ᶠ p in elongF a, p.1 ≠ q := elongF_ev (c1.eventually_ne n.symm)
  have e2 : ∀ᶠ p in elongF a, p.2.1 ≠ q := elongF_ev (c2.eventually_ne hq.ne)
  have e3 : ∀ᶠ p in elongF a, p.2.2 ≠ q := elongF_ev (c3.eventually_ne n.symm)
  have e4 : ∀ᶠ p in elongF a, 0 < p.1 - p.2.1 :=
    elongF_ev ((c1.sub c2).eventually (lt_mem_nhds (show 0 < a - 0 by linarith)))
  have m2 : ∀ᶠ p in elongF a, 0 < -p.1 ^ 2 + p.2.2 ^ 2 + q ^ 2 :=
    elongF_ev ((show ContinuousAt (fun p : ℝ × ℝ × ℝ => -p.1 ^ 2 + p.2.2 ^ 2 + q ^ 2) (a, 0, a) by fun_prop).eventually
      (lt_mem_nhds (show 0 < -a ^ 2 + a ^ 2 + q ^ 2 by rw [neg_add_cancel, zero_add]; positivity)))
  have m3 : ∀ᶠ p in elongF a, 0 < p.1 ^ 2 - p.2.2 ^ 2 + q ^ 2 :=
    elongF_ev ((show ContinuousAt (fun p : ℝ × ℝ × ℝ => p.1 ^ 2 - p.2.2 ^ 2 + q ^ 2) (a, 0, a) by fun_prop).eventually
      (lt_mem_nhds (show 0 < a ^ 2 - a ^ 2 + q ^ 2 by rw [sub_self, zero_add]; positivity)))
  filter_upwards [elongF_tri a, e1, e2, e3, e4, m2, m3] with p ht n1 n2 n3 hlt hm2 hm3
  have hI := g2%(f)s_elong_identity p.1 p.2.1 p.2.2 q ht.pos1 ht.pos2 ht.pos3 hq n1.symm n3.symm hm2 hm3
  rw [g2%(f)sExact_form p.1 p.2.1 p.2.2 q ht hq n1.symm n2.symm n3.symm, g2%(f)sElongate, if_pos (by linarith),
    show triM p.2.1 p.2.2 p.1 q = triM p.2.2 p.2.1 p.1 q from by unfold triM; ring]
  linear_combination -hI
'''%dict(C,AP=AP,cx=tr(cx),cv=tr(cvv)))
    return '\n'.join(o)
if __name__=='__main__':
    for f in sys.argv[1]:
        b=gen(f)
        open('/verif/lean/Verif/Proofs/Gamma2Elong%s.lean'%f.upper(),'w').write(hd.replace('TriColl','TriElong').replace('third side','second side')%('density' if f=='d' else 'velocity divergence')+b+'\nend\n\nend Verif\n')
