import sys;
from gen2 import *
W3={'1':('k1','k2','k3'),'2':('k1','k3','k2'),'3':('k2','k3','k1')}
src={'d':('src/gamma2d_1loop.c:10-132',),'t':('src/gamma2t_1loop.c:10-117',)}
AR='(pw k1) (pw k2) (pw k3) (pw q)'
def hi(f):
    q=V['q']
    e0,c=data(f)
    h=nopi(lk.F['kernel_gamma2%s_highk'%f](V['k1'],V['k2'],V['k3'],V['q']))
    def Lh(n,N): k=V[n]; return sum((4*(q/k)**(2*j+1)/(2*j+1) for j in range(N)),P.c(0))
    def Wh(a,b,c):
        a,b,c=V[a],V[b],V[c]; S=a*a+b*b-c*c; Pp=a*a*b*b; u=q**2
        z=(S*u-u*u)/Pp
        i1=sum((z**j for j in range(5)),P.c(0))/Pp
        tot=P.c(0); x=P.c(1)*i1
        for j in range(5):
            tot=tot+x/(2*j+1); x=(x*i1*c*c*u).trunc('q',8)
        return (4*c*q*tot).trunc('q',7)
    R=e0-h
    for n in '123': R=R+c['L'+n]*Lh('k'+n,4)
    ws={}
    for n,(a,b,cc) in W3.items(): ws[n]=Wh(a,b,cc); R=R+c['W'+n]*ws[n]
    return R,ws
if __name__=='__main__':
    o=['''import Verif.Proofs.Gamma2Sym
import Verif.Props.Triangle

/-!
# The exact second-order loop kernels as linear forms in their logarithms

Coefficients found by `tools/g2limits` and checked here against the expressions of `Verif.Model.Gamma2d` and `Verif.Model.Gamma2t`.
-/

set_option linter.unusedSimpArgs false

namespace Verif

noncomputable section

open Real

/-- `log|(s+a)/(s-a)|` over `s`, twice, with `s²=m`: the combination of `WFunc` and a square root in which the exact kernels are
linear (`src/kernels.c:44-56`, `src/gamma2d_1loop.c:116-126`). -/
def triLog (a m : ℝ) : ℝ := 2 * Real.log |(Real.sqrt m + a) / (Real.sqrt m - a)| / Real.sqrt m

/-- The argument of the square root of `WFunc` (`src/kernels.c:53`). -/
def triM (a b c q : ℝ) : ℝ := (a ^ 2 - q ^ 2) * (b ^ 2 - q ^ 2) + (c * q) ^ 2
''']
    for f in 'dt':
        e0,c=data(f)
        o.append('/-- The part of `kernel_gamma2%s_exact` without logarithms (`%s`), without the factor `π`. -/\ndef g2%sC0 (k1 k2 k3 q : ℕ → ℝ) : ℝ :=\n  %s\n'%(f,src[f][0],f,wrap(show(e0))))
        for n in c:
            what='`LFunc(k%s,q)`'%n[1] if n[0]=='L' else '`WFunc(%s,%s,%s,q)` over its square root'%W3[n[1]]
            o.append('/-- Coefficient of %s in `kernel_gamma2%s_exact` (`%s`), without the factor `π`. -/\ndef g2%sC%s (k1 k2 k3 q : ℕ → ℝ) : ℝ :=\n  %s\n'%(what,f,src[f][0],f,n,wrap(show(c[n]))))
    o.append('''theorem WFunc_triLog (a b c q : ℝ) (h : Triangle a b c) (hq : 0 < q) (ha : q ≠ a) (hb : q ≠ b) (m : ℝ) (hm : m = triM a b c q) :
    WFunc a b c q / Real.sqrt m = triLog (c * q) (triM a b c q) := by
  obtain ⟨-, s, s0, s1, -, s3⟩ := C19_WFunc a b c q h hq ha hb
  have hs : Real.sqrt (triM a b c q) = s := by
    rw [triM, ← s1, Real.sqrt_sq s0.le]
  rw [hm, triLog, hs, s3]
''')
    for f in 'dt':
        o.append('''/-- The exact kernel as a linear form. -/
theorem g2%(f)sExact_form (k1 k2 k3 q : ℝ) (h : Triangle k1 k2 k3) (hq : 0 < q) (n1 : q ≠ k1) (n2 : q ≠ k2) (n3 : q ≠ k3) :
    g2%(f)sExact k1 k2 k3 q = π * (g2%(f)sC0 %(A)s + g2%(f)sCL1 %(A)s * LFunc k1 q +
      g2%(f)sCL2 %(A)s * LFunc k2 q + g2%(f)sCL3 %(A)s * LFunc k3 q +
      g2%(f)sCW1 %(A)s * triLog (k3 * q) (triM k1 k2 k3 q) +
      g2%(f)sCW2 %(A)s * triLog (k2 * q) (triM k1 k3 k2 q) +
      g2%(f)sCW3 %(A)s * triLog (k1 * q) (triM k2 k3 k1 q)) := by
  have h1 := h.pos1.ne'
  have h2 := h.pos2.ne'
  have h3 := h.pos3.ne'
  have hq0 := hq.ne'
  have w1 := WFunc_triLog k1 k2 k3 q h hq n1 n2 (k1 ^ 2 * k2 ^ 2 - (k1 ^ 2 + k2 ^ 2 - k3 ^ 2) * q ^ 2 + q ^ 4) (by unfold triM; ring)
  have w2 := WFunc_triLog k1 k3 k2 q ⟨h.pos1, h.pos3, h.pos2, by linarith [h.lt1], by linarith [h.lt3], by linarith [h.lt2]⟩ hq n1 n3
    (k1 ^ 2 * k3 ^ 2 - (k1 ^ 2 - k2 ^ 2 + k3 ^ 2) * q ^ 2 + q ^ 4) (by unfold triM; ring)
  have w3 := WFunc_triLog k2 k3 k1 q ⟨h.pos2, h.pos3, h.pos1, by linarith [h.lt2], by linarith [h.lt3], by linarith [h.lt1]⟩ hq n2 n3
    (k1 ^ 2 * q ^ 2 + (k2 - q) * (k3 - q) * (k2 + q) * (k3 + q)) (by unfold triM; ring)
  rw [← w1, ← w2, ← w3]
  have e1 : g2%(f)sExact1 (pw k1) (pw k2) (pw k3) (pw q) = π * g2%(f)sC0 (pw k1) (pw k2) (pw k3) (pw q) := by
    simp only [g2%(f)sExact1, g2%(f)sC0, pw]; field_simp; ring
  have e2 : g2%(f)sExact2 (pw k1) (pw k2) (pw k3) (pw q) = π * (g2%(f)sCL1 (pw k1) (pw k2) (pw k3) (pw q) * LFunc k1 q) := by
    simp only [g2%(f)sExact2, g2%(f)sCL1, pw, pow_one, C01_power]; generalize LFunc k1 q = l; field_simp; ring
  have e3 : g2%(f)sExact3 (pw k1) (pw k2) (pw k3) (pw q) = π * (g2%(f)sCL2 (pw k1) (pw k2) (pw k3) (pw q) * LFunc k2 q) := by
    simp only [g2%(f)sExact3, g2%(f)sCL2, pw, pow_one, C01_power]; generalize LFunc k2 q = l; field_simp; ring
  have e4 : g2%(f)sExact4 (pw k1) (pw k2) (pw k3) (pw q) = π * (g2%(f)sCL3 (pw k1) (pw k2) (pw k3) (pw q) * LFunc k3 q) := by
    simp only [g2%(f)sExact4, g2%(f)sCL3, pw, pow_one, C01_power]; generalize LFunc k3 q = l; field_simp; ring
  have e5 : %(last)s = π * (g2%(f)sCW1 %(A)s * (WFunc k1 k2 k3 q /
      Real.sqrt (k1 ^ 2 * k2 ^ 2 - (k1 ^ 2 + k2 ^ 2 - k3 ^ 2) * q ^ 2 + q ^ 4)) +
      g2%(f)sCW2 %(A)s * (WFunc k1 k3 k2 q / Real.sqrt (k1 ^ 2 * k3 ^ 2 - (k1 ^ 2 - k2 ^ 2 + k3 ^ 2) * q ^ 2 + q ^ 4)) +
      g2%(f)sCW3 %(A)s * (WFunc k2 k3 k1 q / Real.sqrt (k1 ^ 2 * q ^ 2 + (k2 - q) * (k3 - q) * (k2 + q) * (k3 + q)))) := by
    simp only [%(lastn)s, g2%(f)sCW1, g2%(f)sCW2, g2%(f)sCW3, pw, pow_one]
    generalize Real.sqrt (k1 ^ 2 * k2 ^ 2 - (k1 ^ 2 + k2 ^ 2 - k3 ^ 2) * q ^ 2 + q ^ 4) = s1
    generalize Real.sqrt (k1 ^ 2 * k3 ^ 2 - (k1 ^ 2 - k2 ^ 2 + k3 ^ 2) * q ^ 2 + q ^ 4) = s2
    generalize Real.sqrt (k1 ^ 2 * q ^ 2 + (k2 - q) * (k3 - q) * (k2 + q) * (k3 + q)) = s3
    ring
  rw [g2%(f)sExact, e1, e2, e3, e4]
  linear_combination e5
'''%dict(f=f,A=AR,last='g2dExact5 '+AR if f=='d' else 'g2tExact5 '+AR+' + g2tExact6 '+AR,lastn='g2dExact5' if f=='d' else 'g2tExact5, g2tExact6'))
    o.append('end\n\nend Verif\n')
    open('/verif/lean/Verif/Proofs/Gamma2Form.lean','w').write('\n'.join(o))
