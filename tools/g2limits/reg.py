import sys;
from form import *
def polydiv(N,n,s):
    """divide polynomial N (in n) by (n+q) exactly, wrt variable n"""
    q=V['q']; x=V[n]
    cs=dict(N.coeffs(n)); m=max(cs); out=P({})
    # synthetic division by x+q
    c=P({})
    for e in range(m,-1,-1):
        c=cs.get(e,P({}))-c*q if e<m else cs.get(e,P({}))
        if e>0: out=out+c*x**(e-1)
    assert not c.d,'rem'
    return out
def ms(f):
    e0,c=data(f); r={}
    for n,drop in (('1',2),('2',2),('3',1)):
        k=V['k'+n]; q=V['q']
        num,den,ex=split(c['L'+n])
        for _ in range(drop): num=polydiv(num,'k'+n,0)
        # R = z+z^2/2+z^3/3, z=4kq/A^2 ; R*A^6
        A=k+q
        R6=4*k*q*A**4+8*k**2*q**2*A**2+k**3*q**3*Fr(64,3)
        mon=P.c(Fr(1,den))
        for nm,e in zip(P.names,ex):
            if e: mon=mon*V[nm]**(-e)
        r[n]=(num*R6*mon, 6-drop)
    return e0,r
def parts(R):
    num,den,ex=split(R)
    return grouped(num,'q'),'*'.join([str(den)]+['%s %d'%(n,e) for n,e in zip(P.names,ex) if e])
if __name__=='__main__':
    o=['''import Verif.Proofs.Gamma2Form

/-!
# The regularised second-order loop kernels

Polynomials found by `tools/g2limits` and checked here.
-/

set_option linter.unusedSimpArgs false
set_option linter.unusedVariables false

namespace Verif

noncomputable section

open Real
''']
    for f in 'dt':
        e0,r=ms(f)
        num,den=parts(e0); assert den=='1552320*k1 8*k2 8*k3 4*q 4' or f=='t',den
        d0=int(den.split('*')[0])
        o.append('/-- Numerator of the part of `kernel_gamma2%s_exact` without logarithms. -/\ndef g2%sRegN0 (k1 k2 k3 q : ℕ → ℝ) : ℝ :=\n  %s\n'%(f,f,wrap(num)))
        dn={}
        for n in '123':
            R,e=r[n]
            num,den=parts(R); print(f,n,den,len(R.d)); dn[n]=int(den.split('*')[0])
            o.append('/-- Rational part of the beta function of `k%s` in `kernel_gamma2%s_reg3rd`, times `(k%s+q)^%d` (numerator). -/\ndef g2%sRegN%s (k1 k2 k3 q : ℕ → ℝ) : ℝ :=\n  %s\n'%(n,f,n,e,f,n,wrap(num)))
            o.append('''set_option maxHeartbeats 2000000 in
theorem g2%(f)sRegN%(n)s_eq (k1 k2 k3 q : ℝ) (h1 : 0 < k1) (h2 : 0 < k2) (h3 : 0 < k3) (hq : 0 < q) :
    g2%(f)sCL%(n)s %(A)s * (4 * k%(n)s * q / (k%(n)s + q) ^ 2 + (4 * k%(n)s * q / (k%(n)s + q) ^ 2) ^ 2 / 2 + (4 * k%(n)s * q / (k%(n)s + q) ^ 2) ^ 3 / 3) =
    g2%(f)sRegN%(n)s %(A)s / (%(d)s) / (k%(n)s + q) ^ %(e)d := by
  simp only [g2%(f)sCL%(n)s, g2%(f)sRegN%(n)s, pw, pow_one]
  field_simp
  ring
'''%dict(f=f,n=n,A=AR,e=e,d=den.replace('*',' * ').replace('k1 ','k1 ^ ').replace('k2 ','k2 ^ ').replace('k3 ','k3 ^ ').replace('q ','q ^ ')))
        print(d0,dn)
        N=13 if f=='d' else 17
        o.append('''set_option maxHeartbeats 20000000 in
set_option maxRecDepth 4000 in
theorem g2%(f)sReg_poly (k1 k2 k3 q : ℝ) :
    8 * k1 ^ 3 * k2 ^ 3 * k3 ^ 3 * (%(S)s) = π * ((k3 + q) ^ 5 * ((k2 + q) ^ 4 * ((k1 + q) ^ 4 * g2%(f)sRegN0 %(A)s + 5 * k2 ^ 6 * k3 ^ 4 * g2%(f)sRegN1 %(A)s) +
      (k1 + q) ^ 4 * (5 * k1 ^ 6 * k3 ^ 4 * g2%(f)sRegN2 %(A)s)) + (k1 + q) ^ 4 * ((k2 + q) ^ 4 * (35 * k1 ^ 6 * k2 ^ 6 * g2%(f)sRegN3 %(A)s))) := by
  simp only [%(D)s, g2%(f)sRegN0, g2%(f)sRegN1, g2%(f)sRegN2, g2%(f)sRegN3, pw, pow_one]
  ring
'''%dict(f=f,A=AR,S=' + '.join('g2%sPoly%d %s'%(f,i,AR) for i in range(N)),D=', '.join('g2%sPoly%d'%(f,i) for i in range(N))))
    o.append("""/-- The closed form of `small_beta` (`src/kernels.c:79-85`) is the one used. -/
structure SmallClosed (k q : ℝ) : Prop where
  far : 1 / 1000000 < |(k - q) / (k + q)|
  arg : 1 / 10 < 1 - ((k - q) / (k + q)) ^ 2

/-- The closed form of `big_beta` (`src/kernels.c:87-97`) is the one used; `y` is the ratio the C code forms. -/
structure BigClosed (k1 k2 k3 q : ℝ) : Prop where
  far : 1 / 100 < |Real.sqrt (triM k1 k2 k3 q) / (k3 * q) - 1|
  arg : 1 / 10 < 1 - ((Real.sqrt (triM k1 k2 k3 q) / (k3 * q) - 1) / (1 + Real.sqrt (triM k1 k2 k3 q) / (k3 * q))) ^ 2

theorem smallBeta_closed (k q : ℝ) (hk : 0 < k) (hq : 0 < q) (hne : q ≠ k) (h : SmallClosed k q) :
    smallBeta k q = (k - q) / (k + q) * (LFunc k q - (4 * k * q / (k + q) ^ 2 + (4 * k * q / (k + q) ^ 2) ^ 2 / 2 + (4 * k * q / (k + q) ^ 2) ^ 3 / 3)) := by
  have hd : k - q ≠ 0 := sub_ne_zero.mpr hne.symm
  have hz : 1 - (k - q) / (k + q) * ((k - q) / (k + q)) = 4 * k * q / (k + q) ^ 2 := by field_simp; ring
  have hz1 : 1 - 4 * k * q / (k + q) ^ 2 = ((k - q) / (k + q)) ^ 2 := by field_simp; ring
  have hz0 : 4 * k * q / (k + q) ^ 2 ≠ 0 := by positivity
  have harg := h.arg
  rw [sq, hz] at harg
  have hL : Real.log (((k - q) / (k + q)) ^ 2) = -LFunc k q := by
    rw [LFunc, ← Real.log_abs, abs_pow, Real.log_pow, show |(k + q) / (k - q)| = |(k - q) / (k + q)|⁻¹ from by rw [← abs_inv, inv_div], Real.log_inv]
    push_cast; ring
  rw [smallBeta]
  simp only [not_le.mpr h.far, if_false, hz]
  rw [betafunc]
  simp only [not_le.mpr harg, if_false, hz1, hL]
  rw [if_neg (by norm_num), if_pos (by norm_num)]
  generalize 4 * k * q / (k + q) ^ 2 = z at *
  generalize LFunc k q = l
  field_simp
  ring

theorem bigBeta_closed (k1 k2 k3 q : ℝ) (h : Triangle k1 k2 k3) (hq : 0 < q) (n1 : q ≠ k1) (n2 : q ≠ k2) (hb : BigClosed k1 k2 k3 q) :
    bigBeta k1 k2 k3 q = (k1 ^ 2 - q ^ 2) * (k2 ^ 2 - q ^ 2) * (triLog (k3 * q) (triM k1 k2 k3 q) -
      4 * (k3 * q) / (Real.sqrt (triM k1 k2 k3 q) + k3 * q) ^ 2) := by
  obtain ⟨-, s, s0, s1, s2, -⟩ := C19_WFunc k1 k2 k3 q h hq n1 n2
  have hs : Real.sqrt (triM k1 k2 k3 q) = s := by rw [triM, ← s1, Real.sqrt_sq s0.le]
  have hs' : Real.sqrt ((k1 * k1 - q * q) * (k2 * k2 - q * q) + k3 * q * (k3 * q)) = s := by
    rw [← hs]; congr 1; unfold triM; ring
  have h3 := h.pos3
  obtain ⟨far, arg⟩ := hb
  rw [hs] at far arg
  have ha : 0 < k3 * q := by positivity
  rw [triLog, hs]
  unfold bigBeta
  dsimp only
  generalize k3 * q = a at *
  have hsa : s - a ≠ 0 := sub_ne_zero.mpr s2
  have hz : 1 - |s / a - 1| * |s / a - 1| / (1 + s / a) / (1 + s / a) = 4 * s * a / (s + a) ^ 2 := by
    rw [abs_mul_abs_self]; field_simp; ring
  have hz1 : 1 - 4 * s * a / (s + a) ^ 2 = ((s - a) / (s + a)) ^ 2 := by field_simp; ring
  have hz2 : 1 - ((s / a - 1) / (1 + s / a)) ^ 2 = 4 * s * a / (s + a) ^ 2 := by
    field_simp; ring
  rw [hz2] at arg
  have hL : Real.log (((s - a) / (s + a)) ^ 2) = -(2 * Real.log |(s + a) / (s - a)|) := by
    rw [← Real.log_abs, abs_pow, Real.log_pow, show |(s + a) / (s - a)| = |(s - a) / (s + a)|⁻¹ from by rw [← abs_inv, inv_div], Real.log_inv]
    push_cast; ring
  simp only [hs', hz]
  rw [if_neg (by linarith), if_neg (by linarith), betafunc]
  simp only [not_le.mpr arg, if_false, hz1, hL, if_true]
  generalize Real.log |(s + a) / (s - a)| = l
  have : 4 * s * a / (s + a) ^ 2 ≠ 0 := by positivity
  field_simp
  ring

theorem beta_rest (s a : ℝ) (hs : 0 < s) (ha : 0 < a) :
    1 / s - (1 - s / a) ^ 2 / (s * (1 + s / a) ^ 2) = 4 * a / (s + a) ^ 2 := by
  field_simp
  ring
""")
    for f in 'dt':
        N=13 if f=='d' else 17
        o.append("""set_option maxHeartbeats 2000000 in
theorem g2%(f)sReg_small (k1 k2 k3 q : ℝ) (h : Triangle k1 k2 k3) (hq : 0 < q) (n1 : q ≠ k1) (n2 : q ≠ k2) (n3 : q ≠ k3)
    (c1 : SmallClosed k1 q) (c2 : SmallClosed k2 q) (c3 : SmallClosed k3 q) :
    4 * (g2%(f)sBeta1 %(A)s + g2%(f)sBeta2 %(A)s + g2%(f)sBeta3 %(A)s) =
    π * (g2%(f)sCL1 %(A)s * (LFunc k1 q - (4 * k1 * q / (k1 + q) ^ 2 + (4 * k1 * q / (k1 + q) ^ 2) ^ 2 / 2 + (4 * k1 * q / (k1 + q) ^ 2) ^ 3 / 3)) +
      g2%(f)sCL2 %(A)s * (LFunc k2 q - (4 * k2 * q / (k2 + q) ^ 2 + (4 * k2 * q / (k2 + q) ^ 2) ^ 2 / 2 + (4 * k2 * q / (k2 + q) ^ 2) ^ 3 / 3)) +
      g2%(f)sCL3 %(A)s * (LFunc k3 q - (4 * k3 * q / (k3 + q) ^ 2 + (4 * k3 * q / (k3 + q) ^ 2) ^ 2 / 2 + (4 * k3 * q / (k3 + q) ^ 2) ^ 3 / 3))) := by
  have h1 := h.pos1
  have h2 := h.pos2
  have h3 := h.pos3
  have e1 : 4 * g2%(f)sBeta1 %(A)s = π * (g2%(f)sCL1 %(A)s * (LFunc k1 q - (4 * k1 * q / (k1 + q) ^ 2 + (4 * k1 * q / (k1 + q) ^ 2) ^ 2 / 2 +
      (4 * k1 * q / (k1 + q) ^ 2) ^ 3 / 3))) := by
    simp only [g2%(f)sBeta1, g2%(f)sCL1, pw, pow_one, C01_power]
    rw [smallBeta_closed k1 q h1 hq n1 c1]
    generalize LFunc k1 q - (4 * k1 * q / (k1 + q) ^ 2 + (4 * k1 * q / (k1 + q) ^ 2) ^ 2 / 2 + (4 * k1 * q / (k1 + q) ^ 2) ^ 3 / 3) = l
    field_simp; ring
  have e2 : 4 * g2%(f)sBeta2 %(A)s = π * (g2%(f)sCL2 %(A)s * (LFunc k2 q - (4 * k2 * q / (k2 + q) ^ 2 + (4 * k2 * q / (k2 + q) ^ 2) ^ 2 / 2 +
      (4 * k2 * q / (k2 + q) ^ 2) ^ 3 / 3))) := by
    simp only [g2%(f)sBeta2, g2%(f)sCL2, pw, pow_one, C01_power]
    rw [smallBeta_closed k2 q h2 hq n2 c2]
    generalize LFunc k2 q - (4 * k2 * q / (k2 + q) ^ 2 + (4 * k2 * q / (k2 + q) ^ 2) ^ 2 / 2 + (4 * k2 * q / (k2 + q) ^ 2) ^ 3 / 3) = l
    field_simp; ring
  have e3 : 4 * g2%(f)sBeta3 %(A)s = π * (g2%(f)sCL3 %(A)s * (LFunc k3 q - (4 * k3 * q / (k3 + q) ^ 2 + (4 * k3 * q / (k3 + q) ^ 2) ^ 2 / 2 +
      (4 * k3 * q / (k3 + q) ^ 2) ^ 3 / 3))) := by
    simp only [g2%(f)sBeta3, g2%(f)sCL3, pw, pow_one, C01_power]
    rw [smallBeta_closed k3 q h3 hq n3 c3]
    generalize LFunc k3 q - (4 * k3 * q / (k3 + q) ^ 2 + (4 * k3 * q / (k3 + q) ^ 2) ^ 2 / 2 + (4 * k3 * q / (k3 + q) ^ 2) ^ 3 / 3) = l
    field_simp; ring
  linear_combination e1 + e2 + e3

set_option maxHeartbeats 2000000 in
theorem g2%(f)sReg_big (k1 k2 k3 q : ℝ) (h : Triangle k1 k2 k3) (hq : 0 < q) (n1 : q ≠ k1) (n2 : q ≠ k2) (n3 : q ≠ k3)
    (b1 : BigClosed k1 k2 k3 q) (b2 : BigClosed %(b2)s q) (b3 : BigClosed k2 k3 k1 q) :
    4 * (g2%(f)sBeta0 %(A)s + g2%(f)sBeta4 %(A)s) =
    π * (g2%(f)sCW1 %(A)s * triLog (k3 * q) (triM k1 k2 k3 q) + g2%(f)sCW2 %(A)s * triLog (k2 * q) (triM k1 k3 k2 q) +
      g2%(f)sCW3 %(A)s * triLog (k1 * q) (triM k2 k3 k1 q)) := by
  have h1 := h.pos1
  have h2 := h.pos2
  have h3 := h.pos3
  have t2 : Triangle k1 k3 k2 := ⟨h1, h3, h2, by linarith [h.lt1], by linarith [h.lt3], by linarith [h.lt2]⟩
  have t2' : Triangle k3 k1 k2 := ⟨h3, h1, h2, by linarith [h.lt3], by linarith [h.lt1], by linarith [h.lt2]⟩
  have t3 : Triangle k2 k3 k1 := ⟨h2, h3, h1, by linarith [h.lt2], by linarith [h.lt3], by linarith [h.lt1]⟩
  have p1 := triM_pos k1 k2 k3 q h hq n1 n2
  have p2 := triM_pos k1 k3 k2 q t2 hq n1 n3
  have p3 := triM_pos k2 k3 k1 q t3 hq n2 n3
  have B1 := bigBeta_closed k1 k2 k3 q h hq n1 n2 b1
  have B2 := bigBeta_closed %(b2)s q %(t2)s hq %(nn2)s b2
  have B3 := bigBeta_closed k2 k3 k1 q t3 hq n2 n3 b3
%(comm)s  simp only [g2%(f)sBeta0, g2%(f)sBeta4, g2%(f)sCW1, g2%(f)sCW2, g2%(f)sCW3, pw, pow_one, C01_power]
  rw [B1, B2, B3]
  rw [show k3 ^ 2 * (k2 ^ 2 - q ^ 2) + q ^ 2 * (k1 ^ 2 - k2 ^ 2 + q ^ 2) = triM k2 k3 k1 q from by unfold triM; ring,
    show k3 ^ 2 * (k1 ^ 2 - q ^ 2) + q ^ 2 * (-k1 ^ 2 + k2 ^ 2 + q ^ 2) = triM k1 k3 k2 q from by unfold triM; ring,
    show k1 ^ 2 * (k2 ^ 2 - q ^ 2) + q ^ 2 * (-k2 ^ 2 + k3 ^ 2 + q ^ 2) = triM k1 k2 k3 q from by unfold triM; ring,
    show k1 ^ 2 * k2 ^ 2 + (-k1 ^ 2 - k2 ^ 2 + k3 ^ 2) * q ^ 2 + q ^ 4 = triM k1 k2 k3 q from by unfold triM; ring,
    show k1 ^ 2 * k3 ^ 2 - (k1 ^ 2 - k2 ^ 2 + k3 ^ 2) * q ^ 2 + q ^ 4 = triM k1 k3 k2 q from by unfold triM; ring,
    show k2 ^ 2 * k3 ^ 2 - (-k1 ^ 2 + k2 ^ 2 + k3 ^ 2) * q ^ 2 + q ^ 4 = triM k2 k3 k1 q from by unfold triM; ring]
  have r1 := beta_rest (Real.sqrt (triM k1 k2 k3 q)) (k3 * q) (Real.sqrt_pos.mpr p1) (by positivity)
  have r2 := beta_rest (Real.sqrt (triM k1 k3 k2 q)) (k2 * q) (Real.sqrt_pos.mpr p2) (by positivity)
  have r3 := beta_rest (Real.sqrt (triM k2 k3 k1 q)) (k1 * q) (Real.sqrt_pos.mpr p3) (by positivity)
  rw [← r1, ← r2, ← r3]
  simp only [div_eq_mul_inv _ (Real.sqrt (triM k1 k2 k3 q)), div_eq_mul_inv _ (Real.sqrt (triM k1 k3 k2 q)), div_eq_mul_inv _ (Real.sqrt (triM k2 k3 k1 q)),
    mul_div_assoc _ ((1 - Real.sqrt (triM k1 k2 k3 q) / (k3 * q)) ^ 2) _,
    mul_div_assoc _ ((1 - Real.sqrt (triM k1 k3 k2 q) / (k2 * q)) ^ 2) _,
    mul_div_assoc _ ((1 - Real.sqrt (triM k2 k3 k1 q) / (k1 * q)) ^ 2) _, one_mul]
  generalize (1 - Real.sqrt (triM k1 k2 k3 q) / (k3 * q)) ^ 2 / (Real.sqrt (triM k1 k2 k3 q) * (1 + Real.sqrt (triM k1 k2 k3 q) / (k3 * q)) ^ 2) = y1
  generalize (1 - Real.sqrt (triM k1 k3 k2 q) / (k2 * q)) ^ 2 / (Real.sqrt (triM k1 k3 k2 q) * (1 + Real.sqrt (triM k1 k3 k2 q) / (k2 * q)) ^ 2) = y2
  generalize (1 - Real.sqrt (triM k2 k3 k1 q) / (k1 * q)) ^ 2 / (Real.sqrt (triM k2 k3 k1 q) * (1 + Real.sqrt (triM k2 k3 k1 q) / (k1 * q)) ^ 2) = y3
  generalize (Real.sqrt (triM k1 k2 k3 q))⁻¹ = x1
  generalize (Real.sqrt (triM k1 k3 k2 q))⁻¹ = x2
  generalize (Real.sqrt (triM k2 k3 k1 q))⁻¹ = x3
  generalize triLog (k3 * q) (triM k1 k2 k3 q) = l1
  generalize triLog (k2 * q) (triM k1 k3 k2 q) = l2
  generalize triLog (k1 * q) (triM k2 k3 k1 q) = l3
  field_simp
  ring

/-- The regularised kernel is the exact one. -/
theorem g2%(f)sReg_exact (k1 k2 k3 q : ℝ) (h : Triangle k1 k2 k3) (hq : 0 < q) (n1 : q ≠ k1) (n2 : q ≠ k2) (n3 : q ≠ k3)
    (c1 : SmallClosed k1 q) (c2 : SmallClosed k2 q) (c3 : SmallClosed k3 q)
    (b1 : BigClosed k1 k2 k3 q) (b2 : BigClosed %(b2)s q) (b3 : BigClosed k2 k3 k1 q) :
    g2%(f)sReg3rd k1 k2 k3 q = g2%(f)sExact k1 k2 k3 q := by
  have h1 := h.pos1
  have h2 := h.pos2
  have h3 := h.pos3
  rw [g2%(f)sExact_form k1 k2 k3 q h hq n1 n2 n3, g2%(f)sReg3rd]
  have e1 := g2%(f)sReg_small k1 k2 k3 q h hq n1 n2 n3 c1 c2 c3
  have e2 := g2%(f)sReg_big k1 k2 k3 q h hq n1 n2 n3 b1 b2 b3
  have e3 : g2%(f)sDen %(A)s = 776160 * k1 ^ 5 * k2 ^ 5 * k3 * q ^ 4 * ((k1 + q) ^ 4 * (k2 + q) ^ 4 * (k3 + q) ^ 5) := by
    simp only [g2%(f)sDen, pw, pow_one, C01_power]; ring
  have e4 := g2%(f)sReg_poly k1 k2 k3 q
  have m1 := g2%(f)sRegN1_eq k1 k2 k3 q h1 h2 h3 hq
  have m2 := g2%(f)sRegN2_eq k1 k2 k3 q h1 h2 h3 hq
  have m3 := g2%(f)sRegN3_eq k1 k2 k3 q h1 h2 h3 hq
  have e5 : g2%(f)sC0 %(A)s = g2%(f)sRegN0 %(A)s / (1552320 * k1 ^ 8 * k2 ^ 8 * k3 ^ 4 * q ^ 4) := by
    simp only [g2%(f)sC0, g2%(f)sRegN0, pw, pow_one]
  simp only [← add_div]
  rw [e3, e5]
  generalize %(S)s = p at *
  have e6 : p = π * ((k3 + q) ^ 5 * ((k2 + q) ^ 4 * ((k1 + q) ^ 4 * g2%(f)sRegN0 %(A)s + 5 * k2 ^ 6 * k3 ^ 4 * g2%(f)sRegN1 %(A)s) +
      (k1 + q) ^ 4 * (5 * k1 ^ 6 * k3 ^ 4 * g2%(f)sRegN2 %(A)s)) + (k1 + q) ^ 4 * ((k2 + q) ^ 4 * (35 * k1 ^ 6 * k2 ^ 6 * g2%(f)sRegN3 %(A)s))) /
      (8 * k1 ^ 3 * k2 ^ 3 * k3 ^ 3) := by
    rw [eq_div_iff (by positivity)]; linarith
  have e7 : 4 * (p / (776160 * k1 ^ 5 * k2 ^ 5 * k3 * q ^ 4 * ((k1 + q) ^ 4 * (k2 + q) ^ 4 * (k3 + q) ^ 5))) =
      π * (g2%(f)sRegN0 %(A)s / (1552320 * k1 ^ 8 * k2 ^ 8 * k3 ^ 4 * q ^ 4) +
        g2%(f)sRegN1 %(A)s / (310464 * k1 ^ 8 * k2 ^ 2 * q ^ 4) / (k1 + q) ^ 4 +
        g2%(f)sRegN2 %(A)s / (310464 * k1 ^ 2 * k2 ^ 8 * q ^ 4) / (k2 + q) ^ 4 +
        g2%(f)sRegN3 %(A)s / (44352 * k1 ^ 2 * k2 ^ 2 * k3 ^ 4 * q ^ 4) / (k3 + q) ^ 5) := by
    rw [e6]
    generalize g2%(f)sRegN0 %(A)s = r0
    generalize g2%(f)sRegN1 %(A)s = r1
    generalize g2%(f)sRegN2 %(A)s = r2
    generalize g2%(f)sRegN3 %(A)s = r3
    field_simp
    ring
  rw [← m1, ← m2, ← m3] at e7
  linear_combination e7 + e1 + e2
"""%dict(f=f,A=AR,b2='k1 k3 k2' if f=='d' else 'k3 k1 k2',t2='t2' if f=='d' else "t2'",nn2='n1 n3' if f=='d' else 'n3 n1',
      comm='' if f=='d' else '  rw [show triM k3 k1 k2 q = triM k1 k3 k2 q from by unfold triM; ring] at B2\n',
      S=' + '.join('g2%sPoly%d %s'%(f,i,AR) for i in range(N))))
    o.append('end\n\nend Verif\n')
    x='\n'.join(o)
    x=x.replace('theorem smallBeta_closed','''theorem triM_pos (k1 k2 k3 q : ℝ) (h : Triangle k1 k2 k3) (hq : 0 < q) (n1 : q ≠ k1) (n2 : q ≠ k2) : 0 < triM k1 k2 k3 q := by
  obtain ⟨-, s, s0, s1, -, -⟩ := C19_WFunc k1 k2 k3 q h hq n1 n2
  rw [triM, ← s1]
  positivity

theorem smallBeta_closed''',1)
    i=x.index('/-- Numerator of the part'); j=x.index('/-- The closed form of `small_beta`')
    open('/verif/lean/Verif/Proofs/Gamma2RegPoly.lean','w').write(x[:j]+'end\n\nend Verif\n')
    open('/verif/lean/Verif/Proofs/Gamma2Reg.lean','w').write(x[:i].replace('import Verif.Proofs.Gamma2Form','import Verif.Proofs.Gamma2RegPoly').replace('Polynomials found by `tools/g2limits` and checked here.','Equal to the exact kernels where the closed forms of the beta functions are used.')+x[j:])
