import sys;
from form import *
C=['CL1','CL2','CL3','CW1','CW2','CW3']
def bo(f,n,filt,lem,e,extra=''):
    return '''theorem g2%(f)s%(n)s_%(s)s (k1 k2 k3 : ℝ) : (fun q => g2%(f)s%(n)s %(A)s) =O[%(filt)s] fun q : ℝ => q ^ (%(e)d : ℤ) := by
  unfold g2%(f)s%(n)s
  exact %(lem)s _ _ _ _ _%(x)s _ _ _ (by norm_num)
'''%dict(f=f,n=n,s=lem.split('_')[0],A=AR,filt=filt,lem=lem,e=e,x=extra)
head='''import Verif.Proofs.Gamma2Asym

/-!
# %s

Remainders found by `tools/g2limits` and checked here.
-/

set_option linter.unusedSimpArgs false

namespace Verif

noncomputable section

open Real Asymptotics Filter Topology

'''
def rem(R,last):
    num,den,ex=split(R)
    d=[str(den)]+['%s %d'%(n,e) for n,e in zip(P.names,ex) if e]+last
    return '(%s)/(%s)'%(grouped(num,'q'),'*'.join(d))
def low(f):
    o=[]
    o.append('/-- Remainder of `kernel_gamma2%s_lowk` after expanding the exact kernel at large `q` (`%s`). -/\ndef g2%sLowRem (k1 k2 k3 q : ℕ → ℝ) : ℝ :=\n  %s\n'%(f,src[f][0],f,wrap(rem(lowrem(f),[]))))
    for n in C: o.append(bo(f,n,'atTop','inf_frac6' if n[1]=='L' else 'inf_frac5',5 if n[1]=='L' else 3,' _' if n[1]=='L' else ''))
    o.append(bo(f,'LowRem','atTop','inf_frac5',-6))
    o.append('''set_option maxHeartbeats 2000000 in
theorem g2%(f)s_low_identity (k1 k2 k3 q : ℝ) (h1 : k1 ≠ 0) (h2 : k2 ≠ 0) (h3 : k3 ≠ 0) (hq : q ≠ 0) :
    π * (g2%(f)sC0 %(A)s + g2%(f)sCL1 %(A)s * (4 * artSum 5 (k1 / q)) + g2%(f)sCL2 %(A)s * (4 * artSum 5 (k2 / q)) +
      g2%(f)sCL3 %(A)s * (4 * artSum 5 (k3 / q)) + g2%(f)sCW1 %(A)s * triInf k1 k2 k3 q +
      g2%(f)sCW2 %(A)s * triInf k1 k3 k2 q + g2%(f)sCW3 %(A)s * triInf k2 k3 k1 q) - g2%(f)sLowk k1 k2 k3 q =
    π * g2%(f)sLowRem %(A)s := by
  simp only [artSum, Finset.sum_range_succ, Finset.sum_range_zero, triInf]
  push_cast
  simp only [g2%(f)sC0, g2%(f)sCL1, g2%(f)sCL2, g2%(f)sCL3, g2%(f)sCW1, g2%(f)sCW2, g2%(f)sCW3, g2%(f)sLowk, g2%(f)sLowkE, g2%(f)sLowRem, pw, pow_one]
  field_simp
  ring

theorem g2%(f)s_low (k1 k2 k3 : ℝ) (h : Triangle k1 k2 k3) :
    (fun q => g2%(f)sExact k1 k2 k3 q - g2%(f)sLowk k1 k2 k3 q) =O[atTop] fun q : ℝ => q ^ (-6 : ℤ) := by
  have step : ∀ (c x : ℝ → ℝ) (m n : ℤ), m + n = -6 → (c =O[atTop] fun q : ℝ => q ^ m) → (x =O[atTop] fun q : ℝ => q ^ n) →
      (fun q => c q * x q) =O[atTop] fun q : ℝ => q ^ (-6 : ℤ) := fun c x m n e hc hx => by
    refine (hc.mul hx).congr' EventuallyEq.rfl ?_
    filter_upwards [eventually_gt_atTop 0] with q hq
    rw [← zpow_add₀ hq.ne', e]
  have l1 := step _ _ 5 (-11) (by norm_num) (g2%(f)sCL1_inf k1 k2 k3) (LFunc_inf k1 h.pos1)
  have l2 := step _ _ 5 (-11) (by norm_num) (g2%(f)sCL2_inf k1 k2 k3) (LFunc_inf k2 h.pos2)
  have l3 := step _ _ 5 (-11) (by norm_num) (g2%(f)sCL3_inf k1 k2 k3) (LFunc_inf k3 h.pos3)
  have w1 := step _ _ 3 (-9) (by norm_num) (g2%(f)sCW1_inf k1 k2 k3) (triLog_inf k1 k2 k3 h.pos3)
  have w2 := step _ _ 3 (-9) (by norm_num) (g2%(f)sCW2_inf k1 k2 k3) (triLog_inf k1 k3 k2 h.pos2)
  have w3 := step _ _ 3 (-9) (by norm_num) (g2%(f)sCW3_inf k1 k2 k3) (triLog_inf k2 k3 k1 h.pos1)
  refine ((((((l1.add l2).add l3).add w1).add w2).add w3).add (g2%(f)sLowRem_inf k1 k2 k3)).const_mul_left π |>.congr' ?_ EventuallyEq.rfl
  filter_upwards [eventually_gt_atTop 0, eventually_gt_atTop k1, eventually_gt_atTop k2, eventually_gt_atTop k3] with q hq q1 q2 q3
  rw [g2%(f)sExact_form k1 k2 k3 q h hq q1.ne' q2.ne' q3.ne']
  linear_combination -g2%(f)s_low_identity k1 k2 k3 q h.pos1.ne' h.pos2.ne' h.pos3.ne' hq.ne'
'''%dict(f=f,A=AR))
    return '\n'.join(o)
def high(f):
    R,ws=hi(f)
    o=[]
    o.append('/-- Remainder of `kernel_gamma2%s_highk` after expanding the exact kernel at small `q` (`%s`). -/\ndef g2%sHighRem (k1 k2 k3 q : ℕ → ℝ) : ℝ :=\n  %s\n'%(f,src[f][0],f,wrap(rem(R*V['q']**(-4),['q 0']))))
    for n in C: o.append(bo(f,n,'𝓝[>] 0','zero_frac6' if n[1]=='L' else 'zero_frac5',-5,' _' if n[1]=='L' else ''))
    o.append(bo(f,'HighRem','𝓝[>] 0','zero_frac5',0))
    o.append('''set_option maxRecDepth 4000 in
set_option maxHeartbeats 4000000 in
theorem g2%(f)s_high_identity (k1 k2 k3 q : ℝ) (h1 : k1 ≠ 0) (h2 : k2 ≠ 0) (h3 : k3 ≠ 0) (hq : q ≠ 0) :
    π * (g2%(f)sC0 %(A)s + g2%(f)sCL1 %(A)s * (4 * artSum 4 (q / k1)) + g2%(f)sCL2 %(A)s * (4 * artSum 4 (q / k2)) +
      g2%(f)sCL3 %(A)s * (4 * artSum 4 (q / k3)) + g2%(f)sCW1 %(A)s * triZero k1 k2 k3 q +
      g2%(f)sCW2 %(A)s * triZero k1 k3 k2 q + g2%(f)sCW3 %(A)s * triZero k2 k3 k1 q) - g2%(f)sHighk k1 k2 k3 q =
    π * (q ^ 4 * g2%(f)sHighRem %(A)s) := by
  simp only [artSum, Finset.sum_range_succ, Finset.sum_range_zero, triZero, triZeroE]
  push_cast
  simp only [g2%(f)sC0, g2%(f)sCL1, g2%(f)sCL2, g2%(f)sCL3, g2%(f)sCW1, g2%(f)sCW2, g2%(f)sCW3, g2%(f)sHighk, g2%(f)sHighkE, g2%(f)sHighRem, pw, pow_one, pow_zero,
    C01_power, Real.rpow_ofNat]
  field_simp
  ring

theorem g2%(f)s_high (k1 k2 k3 : ℝ) (h : Triangle k1 k2 k3) :
    (fun q => g2%(f)sExact k1 k2 k3 q - g2%(f)sHighk k1 k2 k3 q) =O[𝓝[>] 0] fun q : ℝ => q ^ (4 : ℤ) := by
  have step : ∀ (c x : ℝ → ℝ) (m n : ℤ), m + n = 4 → (c =O[𝓝[>] 0] fun q : ℝ => q ^ m) → (x =O[𝓝[>] 0] fun q : ℝ => q ^ n) →
      (fun q => c q * x q) =O[𝓝[>] 0] fun q : ℝ => q ^ (4 : ℤ) := fun c x m n e hc hx => by
    refine (hc.mul hx).congr' EventuallyEq.rfl ?_
    filter_upwards [self_mem_nhdsWithin] with q hq
    have hq : (0 : ℝ) < q := hq
    rw [← zpow_add₀ hq.ne', e]
  have l1 := step _ _ (-5) 9 (by norm_num) (g2%(f)sCL1_zero k1 k2 k3) (LFunc_zero k1 h.pos1)
  have l2 := step _ _ (-5) 9 (by norm_num) (g2%(f)sCL2_zero k1 k2 k3) (LFunc_zero k2 h.pos2)
  have l3 := step _ _ (-5) 9 (by norm_num) (g2%(f)sCL3_zero k1 k2 k3) (LFunc_zero k3 h.pos3)
  have w1 := step _ _ (-5) 9 (by norm_num) (g2%(f)sCW1_zero k1 k2 k3) (triLog_zero k1 k2 k3 h.pos1 h.pos2 h.pos3)
  have w2 := step _ _ (-5) 9 (by norm_num) (g2%(f)sCW2_zero k1 k2 k3) (triLog_zero k1 k3 k2 h.pos1 h.pos3 h.pos2)
  have w3 := step _ _ (-5) 9 (by norm_num) (g2%(f)sCW3_zero k1 k2 k3) (triLog_zero k2 k3 k1 h.pos2 h.pos3 h.pos1)
  have r := step _ _ 4 0 (by norm_num) (isBigO_refl (fun q : ℝ => q ^ (4 : ℤ)) (𝓝[>] 0)) (g2%(f)sHighRem_zero k1 k2 k3)
  refine ((((((l1.add l2).add l3).add w1).add w2).add w3).add r).const_mul_left π |>.congr' ?_ EventuallyEq.rfl
  filter_upwards [Ioo_mem_nhdsGT h.pos1, Ioo_mem_nhdsGT h.pos2, Ioo_mem_nhdsGT h.pos3] with q q1 q2 q3
  have hq : 0 < q := q1.1
  rw [g2%(f)sExact_form k1 k2 k3 q h hq q1.2.ne q2.2.ne q3.2.ne]
  rw [show q ^ (4 : ℤ) = q ^ 4 from by norm_cast]
  linear_combination -g2%(f)s_high_identity k1 k2 k3 q h.pos1.ne' h.pos2.ne' h.pos3.ne' hq.ne'
'''%dict(f=f,A=AR))
    return '\n'.join(o)
open('/verif/lean/Verif/Proofs/Gamma2Low.lean','w').write(head%'The second-order loop kernels at large loop wavenumber'+low('d')+'\n'+low('t')+'\nend\n\nend Verif\n')
open('/verif/lean/Verif/Proofs/Gamma2High.lean','w').write(head%'The second-order loop kernels at small loop wavenumber'+high('d')+'\n'+high('t')+'\nend\n\nend Verif\n')
