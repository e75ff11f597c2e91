import sys;
from gen1 import *
import textwrap
def wrap(s,ind='    '):
    out=[];cur=''
    for w in s.split(' '):
        if len(cur)+len(w)+1>140-len(ind): out.append(cur); cur=w
        else: cur=(cur+' '+w) if cur else w
    out.append(cur)
    return ('\n'+ind).join(out)
def nopi(R): 
    i=P.names.index('pi'); 
    assert all(k[i]==1 for k in R.d),'pi'
    return P({k[:i]+(0,)+k[i+1:]:v for k,v in R.d.items()})
def data(f):
    a=[V['k1'],V['k2'],V['k3'],V['q']]
    ex=lk.F['kernel_gamma2%s_exact'%f](*a)
    c={n:nopi(ex.coeffs(n).get(1)) for n in ('L1','L2','L3','W1','W2','W3')}
    e0=ex
    for n in c: e0=e0.subs(n,P.c(0))
    return nopi(e0),c
def Lt(n,N): k=V[n]; q=V['q']; return sum((4*(k/q)**(2*j+1)/(2*j+1) for j in range(N)),P.c(0))
def Wt(a,b,c):
    q=V['q']
    a,b,c=V[a],V[b],V[c]; S=a*a+b*b-c*c; Pp=a*a*b*b; u=q**-2
    return 4*c*q**-3*(1+(S+c*c/3)*u+(S*S-Pp+S*c*c*Fr(2,3)+c**4/5)*u*u)
def lowrem(f):
    e0,c=data(f)
    lo=nopi(lk.F['kernel_gamma2%s_lowk'%f](V['k1'],V['k2'],V['k3'],V['q']))
    R=e0-lo
    for n in '123': R=R+c['L'+n]*Lt('k'+n,5)
    R=R+c['W1']*Wt('k1','k2','k3')+c['W2']*Wt('k1','k3','k2')+c['W3']*Wt('k2','k3','k1')
    return R
if __name__=='__main__':
    f='d'
    o=[]
    o.append('''import Verif.Proofs.Gamma2Sym

namespace Verif
noncomputable section
open Real
''')
    e0,c=data(f)
    o.append('def g2%sC0 (k1 k2 k3 q : ℕ → ℝ) : ℝ :=\n  %s\n'%(f,wrap(show(e0))))
    for n in c: o.append('def g2%sC%s (k1 k2 k3 q : ℕ → ℝ) : ℝ :=\n  %s\n'%(f,n,wrap(show(c[n]))))
    R=lowrem(f)
    G=(R*V['q']**6)
    o.append('def g2%sLowRem (k1 k2 k3 q : ℕ → ℝ) : ℝ :=\n  %s\n'%(f,wrap(show(G))))
    o.append('''
theorem g2dExact_form (k1 k2 k3 q : ℝ) (h1 : k1 ≠ 0) (h2 : k2 ≠ 0) (h3 : k3 ≠ 0) (hq : q ≠ 0) : g2dExact k1 k2 k3 q =
    π * (g2dC0 (pw k1) (pw k2) (pw k3) (pw q) + g2dCL1 (pw k1) (pw k2) (pw k3) (pw q) * LFunc k1 q + g2dCL2 (pw k1) (pw k2) (pw k3) (pw q) * LFunc k2 q + g2dCL3 (pw k1) (pw k2) (pw k3) (pw q) * LFunc k3 q
    + g2dCW1 (pw k1) (pw k2) (pw k3) (pw q) * (WFunc k1 k2 k3 q / Real.sqrt (k1^2*k2^2 - (k1^2 + k2^2 - k3^2)*q^2 + q^4))
    + g2dCW2 (pw k1) (pw k2) (pw k3) (pw q) * (WFunc k1 k3 k2 q / Real.sqrt (k1^2*k3^2 - (k1^2 - k2^2 + k3^2)*q^2 + q^4))
    + g2dCW3 (pw k1) (pw k2) (pw k3) (pw q) * (WFunc k2 k3 k1 q / Real.sqrt (k1^2*q^2 + (k2 - q)*(k3 - q)*(k2 + q)*(k3 + q)))) := by
  have e1 : g2dExact1 (pw k1) (pw k2) (pw k3) (pw q) = π * g2dC0 (pw k1) (pw k2) (pw k3) (pw q) := by
    simp only [g2dExact1, g2dC0, pw]; field_simp; ring
  have e2 : g2dExact2 (pw k1) (pw k2) (pw k3) (pw q) = π * (g2dCL1 (pw k1) (pw k2) (pw k3) (pw q) * LFunc k1 q) := by
    simp only [g2dExact2, g2dCL1, pw, pow_one, C01_power]; generalize LFunc k1 q = l; field_simp; ring
  have e3 : g2dExact3 (pw k1) (pw k2) (pw k3) (pw q) = π * (g2dCL2 (pw k1) (pw k2) (pw k3) (pw q) * LFunc k2 q) := by
    simp only [g2dExact3, g2dCL2, pw, pow_one, C01_power]; generalize LFunc k2 q = l; field_simp; ring
  have e4 : g2dExact4 (pw k1) (pw k2) (pw k3) (pw q) = π * (g2dCL3 (pw k1) (pw k2) (pw k3) (pw q) * LFunc k3 q) := by
    simp only [g2dExact4, g2dCL3, pw, pow_one, C01_power]; generalize LFunc k3 q = l; field_simp; ring
  sorry

theorem g2d_low_identity (k1 k2 k3 q : ℝ) (h1 : k1 ≠ 0) (h2 : k2 ≠ 0) (h3 : k3 ≠ 0) (hq : q ≠ 0) :
    π * (g2dC0 (pw k1) (pw k2) (pw k3) (pw q) + g2dCL1 (pw k1) (pw k2) (pw k3) (pw q) * (4*(k1/q + (k1/q)^3/3 + (k1/q)^5/5 + (k1/q)^7/7 + (k1/q)^9/9))
    + g2dCL2 (pw k1) (pw k2) (pw k3) (pw q) * (4*(k2/q + (k2/q)^3/3 + (k2/q)^5/5 + (k2/q)^7/7 + (k2/q)^9/9))
    + g2dCL3 (pw k1) (pw k2) (pw k3) (pw q) * (4*(k3/q + (k3/q)^3/3 + (k3/q)^5/5 + (k3/q)^7/7 + (k3/q)^9/9))
    + g2dCW1 (pw k1) (pw k2) (pw k3) (pw q) * (4*k3/q^3*(1 + (k1^2 + k2^2 - k3^2 + k3^2/3)/q^2 + ((k1^2 + k2^2 - k3^2)^2 - k1^2*k2^2 + 2/3*(k1^2 + k2^2 - k3^2)*k3^2 + k3^4/5)/q^4))
    + g2dCW2 (pw k1) (pw k2) (pw k3) (pw q) * (4*k2/q^3*(1 + (k1^2 + k3^2 - k2^2 + k2^2/3)/q^2 + ((k1^2 + k3^2 - k2^2)^2 - k1^2*k3^2 + 2/3*(k1^2 + k3^2 - k2^2)*k2^2 + k2^4/5)/q^4))
    + g2dCW3 (pw k1) (pw k2) (pw k3) (pw q) * (4*k1/q^3*(1 + (k2^2 + k3^2 - k1^2 + k1^2/3)/q^2 + ((k2^2 + k3^2 - k1^2)^2 - k2^2*k3^2 + 2/3*(k2^2 + k3^2 - k1^2)*k1^2 + k1^4/5)/q^4)))
    - g2dLowk k1 k2 k3 q = π * (g2dLowRem (pw k1) (pw k2) (pw k3) (pw q) / q^6) := by
  simp only [g2dC0, g2dCL1, g2dCL2, g2dCL3, g2dCW1, g2dCW2, g2dCW3, g2dLowk, g2dLowkE, g2dLowRem, pw, pow_one]
  field_simp
  ring

end
end Verif
''')
    open('/tmp/t1.lean','w').write('\n'.join(o))
