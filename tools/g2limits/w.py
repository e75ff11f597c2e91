import sys;
from fractions import Fraction as Fr
from lp import P
import lp
P.names=['c','S','u','p','r']
c,S,u,p,r=[P.var(n) for n in P.names]
def run(N,deg):
    E=sum((c**(2*j)*u**j*r**(j+1)/(2*j+1) for j in range(N)),P.c(0))
    iu=P.names.index('u'); ir=P.names.index('r')
    rep=p+u*p*r*(S-u)
    while True:
        bad=[(k,v) for k,v in E.d.items() if k[iu]<deg and k[ir]>0]
        if not bad: break
        k,v=min(bad,key=lambda t:t[0][iu])
        E=E-P({k:v}); kk=list(k); kk[ir]-=1
        E=E+P({tuple(kk):v})*rep
    lo=P({k:v for k,v in E.d.items() if k[iu]<deg})
    hi=P({k:v for k,v in E.d.items() if k[iu]>=deg})*u**(-deg)
    return lo,hi
lo,hi=run(4,4)
print(lo.lean()); print(len(hi.d)); print(hi.lean())
def run2(N,deg):
    E=sum((c**(2*j)*u**j*r**(j+1)/(2*j+1) for j in range(N)),P.c(0))
    iu=P.names.index('u'); ir=P.names.index('r')
    rep=p+u*p*r*(S-u); co=P.c(0)
    while True:
        bad=[(k,v) for k,v in E.d.items() if k[iu]<deg and k[ir]>0]
        if not bad: break
        k,v=min(bad,key=lambda t:t[0][iu])
        E=E-P({k:v}); kk=list(k); kk[ir]-=1
        t=P({tuple(kk):v}); co=co+t
        E=E+t*rep
    return co
co=run2(4,4)
fn='/verif/lean/Verif/Proofs/Gamma2Asym.lean'
s=open(fn).read()
from gen2 import wrap
import re
def sp(x): return re.sub(r'(\w)\*(?=\w)',r'\1 * ',x).replace('^',' ^ ')
sp=lambda x: x.replace('*',' * ').replace('^',' ^ ').replace('/',' / ')
s=s.replace('theorem zero_algebra','/-- The remainder of the expansion `triZeroE`. -/\ndef triZeroRem (c S p u r : ℝ) : ℝ :=\n  %s\n\ntheorem zero_algebra'%wrap(sp(hi.lean())),1)
s=s.replace('u ^ 4 * (HI)','u ^ 4 * triZeroRem c S p u r')
s=s.replace('  COEF','  unfold triZeroRem\n  linear_combination (%s) * h'%wrap(sp(co.lean())))
s=s.replace('\nend\n\nend Verif\n','''
theorem tendsto_ratio_zero (a b c : ℝ) (ha : 0 < a) (hb : 0 < b) : Tendsto (fun q : ℝ => 1 / triM a b c q) (𝓝[>] 0) (𝓝 (1 / (a ^ 2 * b ^ 2))) := by
  have hc : Continuous fun q => triM a b c q := by unfold triM; fun_prop
  have h0 : triM a b c 0 = a ^ 2 * b ^ 2 := by unfold triM; ring
  have := (hc.tendsto 0).inv₀ (by rw [h0]; positivity)
  rw [h0] at this
  simpa only [one_div] using this.mono_left nhdsWithin_le_nhds

theorem triSum_zero (a b c : ℝ) (ha : 0 < a) (hb : 0 < b) :
    (fun q => triSum 4 (c * q) (triM a b c q) - triZero a b c q) =O[𝓝[>] 0] fun q : ℝ => q ^ (9 : ℤ) := by
  set S := a ^ 2 + b ^ 2 - c ^ 2 with hS
  set p := 1 / (a ^ 2 * b ^ 2) with hp
  have hr := tendsto_ratio_zero a b c ha hb
  have hu : Tendsto (fun q : ℝ => q ^ 2) (𝓝[>] 0) (𝓝 (0 ^ 2)) :=
    ((continuous_pow 2).tendsto (0 : ℝ)).mono_left nhdsWithin_le_nhds
  have hcont : Continuous fun z : ℝ × ℝ => 4 * c * triZeroRem c S p z.1 z.2 := by unfold triZeroRem; fun_prop
  have hq := (hcont.tendsto _).comp (hu.prodMk_nhds hr)
  have hO := (hq.isBigO_one ℝ).mul (isBigO_refl (fun q : ℝ => q ^ (9 : ℤ)) (𝓝[>] 0))
  simp only [one_mul] at hO
  refine IsBigO.congr' hO ?_ EventuallyEq.rfl
  filter_upwards [self_mem_nhdsWithin, hr.eventually_ne (show (1 / (a ^ 2 * b ^ 2) : ℝ) ≠ 0 by positivity)] with q hq0 hr0
  have hq0 : 0 < q := hq0
  have hm : triM a b c q ≠ 0 := fun h0 => hr0 (by rw [h0, div_zero])
  have hrel : 1 / triM a b c q = p + q ^ 2 * p * (1 / triM a b c q) * (S - q ^ 2) := by
    have : triM a b c q = q ^ 4 - S * q ^ 2 + a ^ 2 * b ^ 2 := by rw [hS]; unfold triM; ring
    rw [hp]
    field_simp
    rw [this]; ring
  have halg := zero_algebra S p c (q ^ 2) (1 / triM a b c q) hrel
  have e1 : triSum 4 (c * q) (triM a b c q) = 4 * c * q * (1 / triM a b c q * (1 + c ^ 2 * q ^ 2 * (1 / triM a b c q) / 3 +
      c ^ 4 * (q ^ 2) ^ 2 * (1 / triM a b c q) ^ 2 / 5 + c ^ 6 * (q ^ 2) ^ 3 * (1 / triM a b c q) ^ 3 / 7)) := by
    rw [triSum]
    simp only [Finset.sum_range_succ, Finset.sum_range_zero]
    push_cast
    field_simp
    ring
  have e2 : triZero a b c q = 4 * c * q * (p + (c ^ 2 / 3 + S) * p ^ 2 * q ^ 2 + ((c ^ 4 / 5 + S ^ 2 + 2 / 3 * c ^ 2 * S) * p ^ 3 - p ^ 2) * (q ^ 2) ^ 2 +
    ((c ^ 6 / 7 + 3 / 5 * c ^ 4 * S + c ^ 2 * S ^ 2 + S ^ 3) * p ^ 4 - (2 / 3 * c ^ 2 + 2 * S) * p ^ 3) * (q ^ 2) ^ 3) := by
    rw [triZero, ← hS, ← hp, triZeroE]
    ring
  rw [e1, e2, ← mul_sub, halg, show q ^ (9 : ℤ) = q ^ 9 from by norm_cast]
  simp only [Function.comp_apply]
  ring

theorem triLog_zero (a b c : ℝ) (ha : 0 < a) (hb : 0 < b) (hc : 0 < c) :
    (fun q => triLog (c * q) (triM a b c q) - triZero a b c q) =O[𝓝[>] 0] fun q : ℝ => q ^ (9 : ℤ) := by
  have h1 : (fun q => triLog (c * q) (triM a b c q) - triSum 4 (c * q) (triM a b c q)) =O[𝓝[>] 0] fun q : ℝ => q ^ (9 : ℤ) := by
    have hP : 0 < a ^ 2 * b ^ 2 := by positivity
    have hC : Continuous fun q => triM a b c q := by unfold triM; fun_prop
    have h0 : triM a b c 0 = a ^ 2 * b ^ 2 := by unfold triM; ring
    have hev : ∀ᶠ q in 𝓝[>] (0 : ℝ), a ^ 2 * b ^ 2 / 2 < triM a b c q :=
      nhdsWithin_le_nhds ((hC.tendsto 0).eventually (lt_mem_nhds (by rw [h0]; linarith)))
    have hC2 : Continuous fun q : ℝ => 4 * (c * q) ^ 2 := by fun_prop
    have hev2 : ∀ᶠ q in 𝓝[>] (0 : ℝ), 4 * (c * q) ^ 2 < a ^ 2 * b ^ 2 / 2 :=
      nhdsWithin_le_nhds ((hC2.tendsto 0).eventually (gt_mem_nhds (by simpa using hP)))
    refine IsBigO.of_bound (6 * c * c ^ 8 / (a ^ 2 * b ^ 2 / 2) ^ 5) ?_
    filter_upwards [self_mem_nhdsWithin, hev, hev2] with q hq0 hm hs
    have hq0 : 0 < q := hq0
    have hm0 : 0 < triM a b c q := by linarith
    have := triLog_near 4 (c * q) (triM a b c q) (by positivity) (by linarith)
    rw [Real.norm_eq_abs]
    refine this.trans ?_
    rw [Real.norm_eq_abs, abs_of_pos (by positivity)]
    have e : 6 * (c * q) / triM a b c q * ((c * q) ^ 2 / triM a b c q) ^ 4 = 6 * c * c ^ 8 / triM a b c q ^ 5 * q ^ (9 : ℤ) := by
      rw [show q ^ (9 : ℤ) = q ^ 9 from by norm_cast]; field_simp
    rw [e]
    gcongr
  refine (h1.add (triSum_zero a b c ha hb)).congr_left fun q => by ring

/-! ### Ratios of even polynomials -/

theorem inf_mono (m n : ℤ) (h : m ≤ n) : (fun q : ℝ => q ^ m) =O[atTop] fun q : ℝ => q ^ n := by
  refine IsBigO.of_bound 1 ?_
  filter_upwards [eventually_ge_atTop 1] with q hq
  rw [one_mul, Real.norm_eq_abs, Real.norm_eq_abs, abs_of_pos (by positivity), abs_of_pos (by positivity)]
  exact zpow_le_zpow_right₀ hq h

theorem zero_mono (m n : ℤ) (h : n ≤ m) : (fun q : ℝ => q ^ m) =O[𝓝[>] 0] fun q : ℝ => q ^ n := by
  refine IsBigO.of_bound 1 ?_
  filter_upwards [Ioo_mem_nhdsGT (show (0 : ℝ) < 1 by norm_num)] with q hq
  have hq0 : 0 < q := hq.1
  rw [one_mul, Real.norm_eq_abs, Real.norm_eq_abs, abs_of_pos (by positivity), abs_of_pos (by positivity)]
  exact zpow_le_zpow_right_of_le_one₀ hq0 hq.2.le h

theorem inf_term (c d : ℝ) (m n : ℕ) (e : ℤ) (h : (m : ℤ) - n ≤ e) : (fun q : ℝ => c * q ^ m / (d * q ^ n)) =O[atTop] fun q : ℝ => q ^ e := by
  refine (((isBigO_refl (fun q : ℝ => q ^ ((m : ℤ) - n)) atTop).const_mul_left (c / d)).trans (inf_mono _ _ h)).congr' ?_ EventuallyEq.rfl
  filter_upwards [eventually_gt_atTop 0] with q hq
  rw [zpow_sub₀ hq.ne', zpow_natCast, zpow_natCast, mul_div_mul_comm]

theorem zero_term (c d : ℝ) (m n : ℕ) (e : ℤ) (h : e ≤ (m : ℤ) - n) : (fun q : ℝ => c * q ^ m / (d * q ^ n)) =O[𝓝[>] 0] fun q : ℝ => q ^ e := by
  refine (((isBigO_refl (fun q : ℝ => q ^ ((m : ℤ) - n)) (𝓝[>] 0)).const_mul_left (c / d)).trans (zero_mono _ _ h)).congr' ?_ EventuallyEq.rfl
  filter_upwards [self_mem_nhdsWithin] with q hq
  have hq : (0 : ℝ) < q := hq
  rw [zpow_sub₀ hq.ne', zpow_natCast, zpow_natCast, mul_div_mul_comm]

end

end Verif
''')
open(fn,'w').write(s)
