import Verif.Proofs.Gamma2RegPoly

/-!
# The regularised second-order loop kernels

Equal to the exact kernels where the closed forms of the beta functions are used.
-/

set_option linter.unusedSimpArgs false
set_option linter.unusedVariables false

namespace Verif

noncomputable section

open Real

/-- The closed form of `small_beta` (`src/kernels.c:79-85`) is the one used. -/
structure SmallClosed (k q : ℝ) : Prop where
  far : 1 / 1000000 < |(k - q) / (k + q)|
  arg : 1 / 10 < 1 - ((k - q) / (k + q)) ^ 2

/-- The closed form of `big_beta` (`src/kernels.c:87-97`) is the one used; `y` is the ratio the C code forms. -/
structure BigClosed (k1 k2 k3 q : ℝ) : Prop where
  far : 1 / 100 < |Real.sqrt (triM k1 k2 k3 q) / (k3 * q) - 1|
  arg : 1 / 10 < 1 - ((Real.sqrt (triM k1 k2 k3 q) / (k3 * q) - 1) / (1 + Real.sqrt (triM k1 k2 k3 q) / (k3 * q))) ^ 2

theorem triM_pos (k1 k2 k3 q : ℝ) (h : Triangle k1 k2 k3) (hq : 0 < q) (n1 : q ≠ k1) (n2 : q ≠ k2) : 0 < triM k1 k2 k3 q := by
  obtain ⟨-, s, s0, s1, -, -⟩ := C19_WFunc k1 k2 k3 q h hq n1 n2
  rw [triM, ← s1]
  positivity

theorem smallBeta_closed (k q : ℝ) (hk : 0 < k) (hq : 0 < q) (hne : q ≠ k) (h : SmallClosed k q) :
    smallBeta k q = (k - q) / (k + q) * (LFunc k q - (4 * k * q / (k + q) ^ 2 + (4 * k * q / (k + q) ^ 2) ^ 2 / 2 + (4 * k * q / (k + q) ^ 2) ^ 3 / 3)) := by
  have hd : k - q ≠ 0 := sub_ne_zero.mpr hne.symm
  have hz : 1 - (k - q) / (k + q) * ((k - q) / (k + q)) = 4 * k * q / (k + q) ^ 2 := by field_simp; ring
  have hz1 : 1 - 4 * k * q / (k + q) ^ 2 = ((k - q) / (k + q)) ^ 2 := by field_simp; ring
  have hz0 : 4 * k * q / (k + q) ^ 2 ≠ 0 := by positivity
  have harg := h.arg
  rw [sq, hz] at harg
  have hL : Real.log (((k - q) / (k + q)) ^ 2) = -LFunc k q := by
    rw [LFunc, ← Real.log_abs, abs_pow, Real.log_pow, show |(k + q) / (k - q)| = |(k - q) / (k + q)|⁻¹ from by rw [← abs_inv, inv_div], Real.log_inv]
    push_cast; ring
  rw [smallBeta]
  simp only [not_le.mpr h.far, if_false, hz]
  rw [betafunc]
  simp only [not_le.mpr harg, if_false, hz1, hL]
  rw [if_neg (by norm_num), if_pos (by norm_num)]
  generalize 4 * k * q / (k + q) ^ 2 = z at *
  generalize LFunc k q = l
  field_simp
  ring

theorem bigBeta_closed (k1 k2 k3 q : ℝ) (h : Triangle k1 k2 k3) (hq : 0 < q) (n1 : q ≠ k1) (n2 : q ≠ k2) (hb : BigClosed k1 k2 k3 q) :
    bigBeta k1 k2 k3 q = (k1 ^ 2 - q ^ 2) * (k2 ^ 2 - q ^ 2) * (triLog (k3 * q) (triM k1 k2 k3 q) -
      4 * (k3 * q) / (Real.sqrt (triM k1 k2 k3 q) + k3 * q) ^ 2) := by
  obtain ⟨-, s, s0, s1, s2, -⟩ := C19_WFunc k1 k2 k3 q h hq n1 n2
  have hs : Real.sqrt (triM k1 k2 k3 q) = s := by rw [triM, ← s1, Real.sqrt_sq s0.le]
  have hs' : Real.sqrt ((k1 * k1 - q * q) * (k2 * k2 - q * q) + k3 * q * (k3 * q)) = s := by
    rw [← hs]; congr 1; unfold triM; ring
  have h3 := h.pos3
  obtain ⟨far, arg⟩ := hb
  rw [hs] at far arg
  have ha : 0 < k3 * q := by positivity
  rw [triLog, hs]
  unfold bigBeta
  dsimp only
  generalize k3 * q = a at *
  have hsa : s - a ≠ 0 := sub_ne_zero.mpr s2
  have hz : 1 - |s / a - 1| * |s / a - 1| / (1 + s / a) / (1 + s / a) = 4 * s * a / (s + a) ^ 2 := by
    rw [abs_mul_abs_self]; field_simp; ring
  have hz1 : 1 - 4 * s * a / (s + a) ^ 2 = ((s - a) / (s + a)) ^ 2 := by field_simp; ring
  have hz2 : 1 - ((s / a - 1) / (1 + s / a)) ^ 2 = 4 * s * a / (s + a) ^ 2 := by
    field_simp; ring
  rw [hz2] at arg
  have hL : Real.log (((s - a) / (s + a)) ^ 2) = -(2 * Real.log |(s + a) / (s - a)|) := by
    rw [← Real.log_abs, abs_pow, Real.log_pow, show |(s + a) / (s - a)| = |(s - a) / (s + a)|⁻¹ from by rw [← abs_inv, inv_div], Real.log_inv]
    push_cast; ring
  simp only [hs', hz]
  rw [if_neg (by linarith), if_neg (by linarith), betafunc]
  simp only [not_le.mpr arg, if_false, hz1, hL, if_true]
  generalize Real.log |(s + a) / (s - a)| = l
  have : 4 * s * a / (s + a) ^ 2 ≠ 0 := by positivity
  field_simp
  ring

theorem beta_rest (s a : ℝ) (hs : 0 < s) (ha : 0 < a) :
    1 / s - (1 - s / a) ^ 2 / (s * (1 + s / a) ^ 2) = 4 * a / (s + a) ^ 2 := by
  field_simp
  ring

set_option maxHeartbeats 2000000 in
theorem g2dReg_small (k1 k2 k3 q : ℝ) (h : Triangle k1 k2 k3) (hq : 0 < q) (n1 : q ≠ k1) (n2 : q ≠ k2) (n3 : q ≠ k3)
    (c1 : SmallClosed k1 q) (c2 : SmallClosed k2 q) (c3 : SmallClosed k3 q) :
    4 * (g2dBeta1 (pw k1) (pw k2) (pw k3) (pw q) + g2dBeta2 (pw k1) (pw k2) (pw k3) (pw q) + g2dBeta3 (pw k1) (pw k2) (pw k3) (pw q)) =
    π * (g2dCL1 (pw k1) (pw k2) (pw k3) (pw q) * (LFunc k1 q - (4 * k1 * q / (k1 + q) ^ 2 + (4 * k1 * q / (k1 + q) ^ 2) ^ 2 / 2 + (4 * k1 * q / (k1 + q) ^ 2) ^ 3 / 3)) +
      g2dCL2 (pw k1) (pw k2) (pw k3) (pw q) * (LFunc k2 q - (4 * k2 * q / (k2 + q) ^ 2 + (4 * k2 * q / (k2 + q) ^ 2) ^ 2 / 2 + (4 * k2 * q / (k2 + q) ^ 2) ^ 3 / 3)) +
      g2dCL3 (pw k1) (pw k2) (pw k3) (pw q) * (LFunc k3 q - (4 * k3 * q / (k3 + q) ^ 2 + (4 * k3 * q / (k3 + q) ^ 2) ^ 2 / 2 + (4 * k3 * q / (k3 + q) ^ 2) ^ 3 / 3))) := by
  have h1 := h.pos1
  have h2 := h.pos2
  have h3 := h.pos3
  have e1 : 4 * g2dBeta1 (pw k1) (pw k2) (pw k3) (pw q) = π * (g2dCL1 (pw k1) (pw k2) (pw k3) (pw q) * (LFunc k1 q - (4 * k1 * q / (k1 + q) ^ 2 + (4 * k1 * q / (k1 + q) ^ 2) ^ 2 / 2 +
      (4 * k1 * q / (k1 + q) ^ 2) ^ 3 / 3))) := by
    simp only [g2dBeta1, g2dCL1, pw, pow_one, C01_power]
    rw [smallBeta_closed k1 q h1 hq n1 c1]
    generalize LFunc k1 q - (4 * k1 * q / (k1 + q) ^ 2 + (4 * k1 * q / (k1 + q) ^ 2) ^ 2 / 2 + (4 * k1 * q / (k1 + q) ^ 2) ^ 3 / 3) = l
    field_simp; ring
  have e2 : 4 * g2dBeta2 (pw k1) (pw k2) (pw k3) (pw q) = π * (g2dCL2 (pw k1) (pw k2) (pw k3) (pw q) * (LFunc k2 q - (4 * k2 * q / (k2 + q) ^ 2 + (4 * k2 * q / (k2 + q) ^ 2) ^ 2 / 2 +
      (4 * k2 * q / (k2 + q) ^ 2) ^ 3 / 3))) := by
    simp only [g2dBeta2, g2dCL2, pw, pow_one, C01_power]
    rw [smallBeta_closed k2 q h2 hq n2 c2]
    generalize LFunc k2 q - (4 * k2 * q / (k2 + q) ^ 2 + (4 * k2 * q / (k2 + q) ^ 2) ^ 2 / 2 + (4 * k2 * q / (k2 + q) ^ 2) ^ 3 / 3) = l
    field_simp; ring
  have e3 : 4 * g2dBeta3 (pw k1) (pw k2) (pw k3) (pw q) = π * (g2dCL3 (pw k1) (pw k2) (pw k3) (pw q) * (LFunc k3 q - (4 * k3 * q / (k3 + q) ^ 2 + (4 * k3 * q / (k3 + q) ^ 2) ^ 2 / 2 +
      (4 * k3 * q / (k3 + q) ^ 2) ^ 3 / 3))) := by
    simp only [g2dBeta3, g2dCL3, pw, pow_one, C01_power]
    rw [smallBeta_closed k3 q h3 hq n3 c3]
    generalize LFunc k3 q - (4 * k3 * q / (k3 + q) ^ 2 + (4 * k3 * q / (k3 + q) ^ 2) ^ 2 / 2 + (4 * k3 * q / (k3 + q) ^ 2) ^ 3 / 3) = l
    field_simp; ring
  linear_combination e1 + e2 + e3

set_option maxHeartbeats 2000000 in
theorem g2dReg_big (k1 k2 k3 q : ℝ) (h : Triangle k1 k2 k3) (hq : 0 < q) (n1 : q ≠ k1) (n2 : q ≠ k2) (n3 : q ≠ k3)
    (b1 : BigClosed k1 k2 k3 q) (b2 : BigClosed k1 k3 k2 q) (b3 : BigClosed k2 k3 k1 q) :
    4 * (g2dBeta0 (pw k1) (pw k2) (pw k3) (pw q) + g2dBeta4 (pw k1) (pw k2) (pw k3) (pw q)) =
    π * (g2dCW1 (pw k1) (pw k2) (pw k3) (pw q) * triLog (k3 * q) (triM k1 k2 k3 q) + g2dCW2 (pw k1) (pw k2) (pw k3) (pw q) * triLog (k2 * q) (triM k1 k3 k2 q) +
      g2dCW3 (pw k1) (pw k2) (pw k3) (pw q) * triLog (k1 * q) (triM k2 k3 k1 q)) := by
  have h1 := h.pos1
  have h2 := h.pos2
  have h3 := h.pos3
  have t2 : Triangle k1 k3 k2 := ⟨h1, h3, h2, by linarith [h.lt1], by linarith [h.lt3], by linarith [h.lt2]⟩
  have t2' : Triangle k3 k1 k2 := ⟨h3, h1, h2, by linarith [h.lt3], by linarith [h.lt1], by linarith [h.lt2]⟩
  have t3 : Triangle k2 k3 k1 := ⟨h2, h3, h1, by linarith [h.lt2], by linarith [h.lt3], by linarith [h.lt1]⟩
  have p1 := triM_pos k1 k2 k3 q h hq n1 n2
  have p2 := triM_pos k1 k3 k2 q t2 hq n1 n3
  have p3 := triM_pos k2 k3 k1 q t3 hq n2 n3
  have B1 := bigBeta_closed k1 k2 k3 q h hq n1 n2 b1
  have B2 := bigBeta_closed k1 k3 k2 q t2 hq n1 n3 b2
  have B3 := bigBeta_closed k2 k3 k1 q t3 hq n2 n3 b3
  simp only [g2dBeta0, g2dBeta4, g2dCW1, g2dCW2, g2dCW3, pw, pow_one, C01_power]
  rw [B1, B2, B3]
  rw [show k3 ^ 2 * (k2 ^ 2 - q ^ 2) + q ^ 2 * (k1 ^ 2 - k2 ^ 2 + q ^ 2) = triM k2 k3 k1 q from by unfold triM; ring,
    show k3 ^ 2 * (k1 ^ 2 - q ^ 2) + q ^ 2 * (-k1 ^ 2 + k2 ^ 2 + q ^ 2) = triM k1 k3 k2 q from by unfold triM; ring,
    show k1 ^ 2 * (k2 ^ 2 - q ^ 2) + q ^ 2 * (-k2 ^ 2 + k3 ^ 2 + q ^ 2) = triM k1 k2 k3 q from by unfold triM; ring,
    show k1 ^ 2 * k2 ^ 2 + (-k1 ^ 2 - k2 ^ 2 + k3 ^ 2) * q ^ 2 + q ^ 4 = triM k1 k2 k3 q from by unfold triM; ring,
    show k1 ^ 2 * k3 ^ 2 - (k1 ^ 2 - k2 ^ 2 + k3 ^ 2) * q ^ 2 + q ^ 4 = triM k1 k3 k2 q from by unfold triM; ring,
    show k2 ^ 2 * k3 ^ 2 - (-k1 ^ 2 + k2 ^ 2 + k3 ^ 2) * q ^ 2 + q ^ 4 = triM k2 k3 k1 q from by unfold triM; ring]
  have r1 := beta_rest (Real.sqrt (triM k1 k2 k3 q)) (k3 * q) (Real.sqrt_pos.mpr p1) (by positivity)
  have r2 := beta_rest (Real.sqrt (triM k1 k3 k2 q)) (k2 * q) (Real.sqrt_pos.mpr p2) (by positivity)
  have r3 := beta_rest (Real.sqrt (triM k2 k3 k1 q)) (k1 * q) (Real.sqrt_pos.mpr p3) (by positivity)
  rw [← r1, ← r2, ← r3]
  simp only [div_eq_mul_inv _ (Real.sqrt (triM k1 k2 k3 q)), div_eq_mul_inv _ (Real.sqrt (triM k1 k3 k2 q)), div_eq_mul_inv _ (Real.sqrt (triM k2 k3 k1 q)),
    mul_div_assoc _ ((1 - Real.sqrt (triM k1 k2 k3 q) / (k3 * q)) ^ 2) _,
    mul_div_assoc _ ((1 - Real.sqrt (triM k1 k3 k2 q) / (k2 * q)) ^ 2) _,
    mul_div_assoc _ ((1 - Real.sqrt (triM k2 k3 k1 q) / (k1 * q)) ^ 2) _, one_mul]
  generalize (1 - Real.sqrt (triM k1 k2 k3 q) / (k3 * q)) ^ 2 / (Real.sqrt (triM k1 k2 k3 q) * (1 + Real.sqrt (triM k1 k2 k3 q) / (k3 * q)) ^ 2) = y1
  generalize (1 - Real.sqrt (triM k1 k3 k2 q) / (k2 * q)) ^ 2 / (Real.sqrt (triM k1 k3 k2 q) * (1 + Real.sqrt (triM k1 k3 k2 q) / (k2 * q)) ^ 2) = y2
  generalize (1 - Real.sqrt (triM k2 k3 k1 q) / (k1 * q)) ^ 2 / (Real.sqrt (triM k2 k3 k1 q) * (1 + Real.sqrt (triM k2 k3 k1 q) / (k1 * q)) ^ 2) = y3
  generalize (Real.sqrt (triM k1 k2 k3 q))⁻¹ = x1
  generalize (Real.sqrt (triM k1 k3 k2 q))⁻¹ = x2
  generalize (Real.sqrt (triM k2 k3 k1 q))⁻¹ = x3
  generalize triLog (k3 * q) (triM k1 k2 k3 q) = l1
  generalize triLog (k2 * q) (triM k1 k3 k2 q) = l2
  generalize triLog (k1 * q) (triM k2 k3 k1 q) = l3
  field_simp
  ring

/-- The regularised kernel is the exact one. -/
theorem g2dReg_exact (k1 k2 k3 q : ℝ) (h : Triangle k1 k2 k3) (hq : 0 < q) (n1 : q ≠ k1) (n2 : q ≠ k2) (n3 : q ≠ k3)
    (c1 : SmallClosed k1 q) (c2 : SmallClosed k2 q) (c3 : SmallClosed k3 q)
    (b1 : BigClosed k1 k2 k3 q) (b2 : BigClosed k1 k3 k2 q) (b3 : BigClosed k2 k3 k1 q) :
    g2dReg3rd k1 k2 k3 q = g2dExact k1 k2 k3 q := by
  have h1 := h.pos1
  have h2 := h.pos2
  have h3 := h.pos3
  rw [g2dExact_form k1 k2 k3 q h hq n1 n2 n3, g2dReg3rd]
  have e1 := g2dReg_small k1 k2 k3 q h hq n1 n2 n3 c1 c2 c3
  have e2 := g2dReg_big k1 k2 k3 q h hq n1 n2 n3 b1 b2 b3
  have e3 : g2dDen (pw k1) (pw k2) (pw k3) (pw q) = 776160 * k1 ^ 5 * k2 ^ 5 * k3 * q ^ 4 * ((k1 + q) ^ 4 * (k2 + q) ^ 4 * (k3 + q) ^ 5) := by
    simp only [g2dDen, pw, pow_one, C01_power]; ring
  have e4 := g2dReg_poly k1 k2 k3 q
  have m1 := g2dRegN1_eq k1 k2 k3 q h1 h2 h3 hq
  have m2 := g2dRegN2_eq k1 k2 k3 q h1 h2 h3 hq
  have m3 := g2dRegN3_eq k1 k2 k3 q h1 h2 h3 hq
  have e5 : g2dC0 (pw k1) (pw k2) (pw k3) (pw q) = g2dRegN0 (pw k1) (pw k2) (pw k3) (pw q) / (1552320 * k1 ^ 8 * k2 ^ 8 * k3 ^ 4 * q ^ 4) := by
    simp only [g2dC0, g2dRegN0, pw, pow_one]
  simp only [← add_div]
  rw [e3, e5]
  generalize g2dPoly0 (pw k1) (pw k2) (pw k3) (pw q) + g2dPoly1 (pw k1) (pw k2) (pw k3) (pw q) + g2dPoly2 (pw k1) (pw k2) (pw k3) (pw q) + g2dPoly3 (pw k1) (pw k2) (pw k3) (pw q) + g2dPoly4 (pw k1) (pw k2) (pw k3) (pw q) + g2dPoly5 (pw k1) (pw k2) (pw k3) (pw q) + g2dPoly6 (pw k1) (pw k2) (pw k3) (pw q) + g2dPoly7 (pw k1) (pw k2) (pw k3) (pw q) + g2dPoly8 (pw k1) (pw k2) (pw k3) (pw q) + g2dPoly9 (pw k1) (pw k2) (pw k3) (pw q) + g2dPoly10 (pw k1) (pw k2) (pw k3) (pw q) + g2dPoly11 (pw k1) (pw k2) (pw k3) (pw q) + g2dPoly12 (pw k1) (pw k2) (pw k3) (pw q) = p at *
  have e6 : p = π * ((k3 + q) ^ 5 * ((k2 + q) ^ 4 * ((k1 + q) ^ 4 * g2dRegN0 (pw k1) (pw k2) (pw k3) (pw q) + 5 * k2 ^ 6 * k3 ^ 4 * g2dRegN1 (pw k1) (pw k2) (pw k3) (pw q)) +
      (k1 + q) ^ 4 * (5 * k1 ^ 6 * k3 ^ 4 * g2dRegN2 (pw k1) (pw k2) (pw k3) (pw q))) + (k1 + q) ^ 4 * ((k2 + q) ^ 4 * (35 * k1 ^ 6 * k2 ^ 6 * g2dRegN3 (pw k1) (pw k2) (pw k3) (pw q)))) /
      (8 * k1 ^ 3 * k2 ^ 3 * k3 ^ 3) := by
    rw [eq_div_iff (by positivity)]; linarith
  have e7 : 4 * (p / (776160 * k1 ^ 5 * k2 ^ 5 * k3 * q ^ 4 * ((k1 + q) ^ 4 * (k2 + q) ^ 4 * (k3 + q) ^ 5))) =
      π * (g2dRegN0 (pw k1) (pw k2) (pw k3) (pw q) / (1552320 * k1 ^ 8 * k2 ^ 8 * k3 ^ 4 * q ^ 4) +
        g2dRegN1 (pw k1) (pw k2) (pw k3) (pw q) / (310464 * k1 ^ 8 * k2 ^ 2 * q ^ 4) / (k1 + q) ^ 4 +
        g2dRegN2 (pw k1) (pw k2) (pw k3) (pw q) / (310464 * k1 ^ 2 * k2 ^ 8 * q ^ 4) / (k2 + q) ^ 4 +
        g2dRegN3 (pw k1) (pw k2) (pw k3) (pw q) / (44352 * k1 ^ 2 * k2 ^ 2 * k3 ^ 4 * q ^ 4) / (k3 + q) ^ 5) := by
    rw [e6]
    generalize g2dRegN0 (pw k1) (pw k2) (pw k3) (pw q) = r0
    generalize g2dRegN1 (pw k1) (pw k2) (pw k3) (pw q) = r1
    generalize g2dRegN2 (pw k1) (pw k2) (pw k3) (pw q) = r2
    generalize g2dRegN3 (pw k1) (pw k2) (pw k3) (pw q) = r3
    field_simp
    ring
  rw [← m1, ← m2, ← m3] at e7
  linear_combination e7 + e1 + e2

set_option maxHeartbeats 2000000 in
theorem g2tReg_small (k1 k2 k3 q : ℝ) (h : Triangle k1 k2 k3) (hq : 0 < q) (n1 : q ≠ k1) (n2 : q ≠ k2) (n3 : q ≠ k3)
    (c1 : SmallClosed k1 q) (c2 : SmallClosed k2 q) (c3 : SmallClosed k3 q) :
    4 * (g2tBeta1 (pw k1) (pw k2) (pw k3) (pw q) + g2tBeta2 (pw k1) (pw k2) (pw k3) (pw q) + g2tBeta3 (pw k1) (pw k2) (pw k3) (pw q)) =
    π * (g2tCL1 (pw k1) (pw k2) (pw k3) (pw q) * (LFunc k1 q - (4 * k1 * q / (k1 + q) ^ 2 + (4 * k1 * q / (k1 + q) ^ 2) ^ 2 / 2 + (4 * k1 * q / (k1 + q) ^ 2) ^ 3 / 3)) +
      g2tCL2 (pw k1) (pw k2) (pw k3) (pw q) * (LFunc k2 q - (4 * k2 * q / (k2 + q) ^ 2 + (4 * k2 * q / (k2 + q) ^ 2) ^ 2 / 2 + (4 * k2 * q / (k2 + q) ^ 2) ^ 3 / 3)) +
      g2tCL3 (pw k1) (pw k2) (pw k3) (pw q) * (LFunc k3 q - (4 * k3 * q / (k3 + q) ^ 2 + (4 * k3 * q / (k3 + q) ^ 2) ^ 2 / 2 + (4 * k3 * q / (k3 + q) ^ 2) ^ 3 / 3))) := by
  have h1 := h.pos1
  have h2 := h.pos2
  have h3 := h.pos3
  have e1 : 4 * g2tBeta1 (pw k1) (pw k2) (pw k3) (pw q) = π * (g2tCL1 (pw k1) (pw k2) (pw k3) (pw q) * (LFunc k1 q - (4 * k1 * q / (k1 + q) ^ 2 + (4 * k1 * q / (k1 + q) ^ 2) ^ 2 / 2 +
      (4 * k1 * q / (k1 + q) ^ 2) ^ 3 / 3))) := by
    simp only [g2tBeta1, g2tCL1, pw, pow_one, C01_power]
    rw [smallBeta_closed k1 q h1 hq n1 c1]
    generalize LFunc k1 q - (4 * k1 * q / (k1 + q) ^ 2 + (4 * k1 * q / (k1 + q) ^ 2) ^ 2 / 2 + (4 * k1 * q / (k1 + q) ^ 2) ^ 3 / 3) = l
    field_simp; ring
  have e2 : 4 * g2tBeta2 (pw k1) (pw k2) (pw k3) (pw q) = π * (g2tCL2 (pw k1) (pw k2) (pw k3) (pw q) * (LFunc k2 q - (4 * k2 * q / (k2 + q) ^ 2 + (4 * k2 * q / (k2 + q) ^ 2) ^ 2 / 2 +
      (4 * k2 * q / (k2 + q) ^ 2) ^ 3 / 3))) := by
    simp only [g2tBeta2, g2tCL2, pw, pow_one, C01_power]
    rw [smallBeta_closed k2 q h2 hq n2 c2]
    generalize LFunc k2 q - (4 * k2 * q / (k2 + q) ^ 2 + (4 * k2 * q / (k2 + q) ^ 2) ^ 2 / 2 + (4 * k2 * q / (k2 + q) ^ 2) ^ 3 / 3) = l
    field_simp; ring
  have e3 : 4 * g2tBeta3 (pw k1) (pw k2) (pw k3) (pw q) = π * (g2tCL3 (pw k1) (pw k2) (pw k3) (pw q) * (LFunc k3 q - (4 * k3 * q / (k3 + q) ^ 2 + (4 * k3 * q / (k3 + q) ^ 2) ^ 2 / 2 +
      (4 * k3 * q / (k3 + q) ^ 2) ^ 3 / 3))) := by
    simp only [g2tBeta3, g2tCL3, pw, pow_one, C01_power]
    rw [smallBeta_closed k3 q h3 hq n3 c3]
    generalize LFunc k3 q - (4 * k3 * q / (k3 + q) ^ 2 + (4 * k3 * q / (k3 + q) ^ 2) ^ 2 / 2 + (4 * k3 * q / (k3 + q) ^ 2) ^ 3 / 3) = l
    field_simp; ring
  linear_combination e1 + e2 + e3

set_option maxHeartbeats 2000000 in
theorem g2tReg_big (k1 k2 k3 q : ℝ) (h : Triangle k1 k2 k3) (hq : 0 < q) (n1 : q ≠ k1) (n2 : q ≠ k2) (n3 : q ≠ k3)
    (b1 : BigClosed k1 k2 k3 q) (b2 : BigClosed k3 k1 k2 q) (b3 : BigClosed k2 k3 k1 q) :
    4 * (g2tBeta0 (pw k1) (pw k2) (pw k3) (pw q) + g2tBeta4 (pw k1) (pw k2) (pw k3) (pw q)) =
    π * (g2tCW1 (pw k1) (pw k2) (pw k3) (pw q) * triLog (k3 * q) (triM k1 k2 k3 q) + g2tCW2 (pw k1) (pw k2) (pw k3) (pw q) * triLog (k2 * q) (triM k1 k3 k2 q) +
      g2tCW3 (pw k1) (pw k2) (pw k3) (pw q) * triLog (k1 * q) (triM k2 k3 k1 q)) := by
  have h1 := h.pos1
  have h2 := h.pos2
  have h3 := h.pos3
  have t2 : Triangle k1 k3 k2 := ⟨h1, h3, h2, by linarith [h.lt1], by linarith [h.lt3], by linarith [h.lt2]⟩
  have t2' : Triangle k3 k1 k2 := ⟨h3, h1, h2, by linarith [h.lt3], by linarith [h.lt1], by linarith [h.lt2]⟩
  have t3 : Triangle k2 k3 k1 := ⟨h2, h3, h1, by linarith [h.lt2], by linarith [h.lt3], by linarith [h.lt1]⟩
  have p1 := triM_pos k1 k2 k3 q h hq n1 n2
  have p2 := triM_pos k1 k3 k2 q t2 hq n1 n3
  have p3 := triM_pos k2 k3 k1 q t3 hq n2 n3
  have B1 := bigBeta_closed k1 k2 k3 q h hq n1 n2 b1
  have B2 := bigBeta_closed k3 k1 k2 q t2' hq n3 n1 b2
  have B3 := bigBeta_closed k2 k3 k1 q t3 hq n2 n3 b3
  rw [show triM k3 k1 k2 q = triM k1 k3 k2 q from by unfold triM; ring] at B2
  simp only [g2tBeta0, g2tBeta4, g2tCW1, g2tCW2, g2tCW3, pw, pow_one, C01_power]
  rw [B1, B2, B3]
  rw [show k3 ^ 2 * (k2 ^ 2 - q ^ 2) + q ^ 2 * (k1 ^ 2 - k2 ^ 2 + q ^ 2) = triM k2 k3 k1 q from by unfold triM; ring,
    show k3 ^ 2 * (k1 ^ 2 - q ^ 2) + q ^ 2 * (-k1 ^ 2 + k2 ^ 2 + q ^ 2) = triM k1 k3 k2 q from by unfold triM; ring,
    show k1 ^ 2 * (k2 ^ 2 - q ^ 2) + q ^ 2 * (-k2 ^ 2 + k3 ^ 2 + q ^ 2) = triM k1 k2 k3 q from by unfold triM; ring,
    show k1 ^ 2 * k2 ^ 2 + (-k1 ^ 2 - k2 ^ 2 + k3 ^ 2) * q ^ 2 + q ^ 4 = triM k1 k2 k3 q from by unfold triM; ring,
    show k1 ^ 2 * k3 ^ 2 - (k1 ^ 2 - k2 ^ 2 + k3 ^ 2) * q ^ 2 + q ^ 4 = triM k1 k3 k2 q from by unfold triM; ring,
    show k2 ^ 2 * k3 ^ 2 - (-k1 ^ 2 + k2 ^ 2 + k3 ^ 2) * q ^ 2 + q ^ 4 = triM k2 k3 k1 q from by unfold triM; ring]
  have r1 := beta_rest (Real.sqrt (triM k1 k2 k3 q)) (k3 * q) (Real.sqrt_pos.mpr p1) (by positivity)
  have r2 := beta_rest (Real.sqrt (triM k1 k3 k2 q)) (k2 * q) (Real.sqrt_pos.mpr p2) (by positivity)
  have r3 := beta_rest (Real.sqrt (triM k2 k3 k1 q)) (k1 * q) (Real.sqrt_pos.mpr p3) (by positivity)
  rw [← r1, ← r2, ← r3]
  simp only [div_eq_mul_inv _ (Real.sqrt (triM k1 k2 k3 q)), div_eq_mul_inv _ (Real.sqrt (triM k1 k3 k2 q)), div_eq_mul_inv _ (Real.sqrt (triM k2 k3 k1 q)),
    mul_div_assoc _ ((1 - Real.sqrt (triM k1 k2 k3 q) / (k3 * q)) ^ 2) _,
    mul_div_assoc _ ((1 - Real.sqrt (triM k1 k3 k2 q) / (k2 * q)) ^ 2) _,
    mul_div_assoc _ ((1 - Real.sqrt (triM k2 k3 k1 q) / (k1 * q)) ^ 2) _, one_mul]
  generalize (1 - Real.sqrt (triM k1 k2 k3 q) / (k3 * q)) ^ 2 / (Real.sqrt (triM k1 k2 k3 q) * (1 + Real.sqrt (triM k1 k2 k3 q) / (k3 * q)) ^ 2) = y1
  generalize (1 - Real.sqrt (triM k1 k3 k2 q) / (k2 * q)) ^ 2 / (Real.sqrt (triM k1 k3 k2 q) * (1 + Real.sqrt (triM k1 k3 k2 q) / (k2 * q)) ^ 2) = y2
  generalize (1 - Real.sqrt (triM k2 k3 k1 q) / (k1 * q)) ^ 2 / (Real.sqrt (triM k2 k3 k1 q) * (1 + Real.sqrt (triM k2 k3 k1 q) / (k1 * q)) ^ 2) = y3
  generalize (Real.sqrt (triM k1 k2 k3 q))⁻¹ = x1
  generalize (Real.sqrt (triM k1 k3 k2 q))⁻¹ = x2
  generalize (Real.sqrt (triM k2 k3 k1 q))⁻¹ = x3
  generalize triLog (k3 * q) (triM k1 k2 k3 q) = l1
  generalize triLog (k2 * q) (triM k1 k3 k2 q) = l2
  generalize triLog (k1 * q) (triM k2 k3 k1 q) = l3
  field_simp
  ring

/-- The regularised kernel is the exact one. -/
theorem g2tReg_exact (k1 k2 k3 q : ℝ) (h : Triangle k1 k2 k3) (hq : 0 < q) (n1 : q ≠ k1) (n2 : q ≠ k2) (n3 : q ≠ k3)
    (c1 : SmallClosed k1 q) (c2 : SmallClosed k2 q) (c3 : SmallClosed k3 q)
    (b1 : BigClosed k1 k2 k3 q) (b2 : BigClosed k3 k1 k2 q) (b3 : BigClosed k2 k3 k1 q) :
    g2tReg3rd k1 k2 k3 q = g2tExact k1 k2 k3 q := by
  have h1 := h.pos1
  have h2 := h.pos2
  have h3 := h.pos3
  rw [g2tExact_form k1 k2 k3 q h hq n1 n2 n3, g2tReg3rd]
  have e1 := g2tReg_small k1 k2 k3 q h hq n1 n2 n3 c1 c2 c3
  have e2 := g2tReg_big k1 k2 k3 q h hq n1 n2 n3 b1 b2 b3
  have e3 : g2tDen (pw k1) (pw k2) (pw k3) (pw q) = 776160 * k1 ^ 5 * k2 ^ 5 * k3 * q ^ 4 * ((k1 + q) ^ 4 * (k2 + q) ^ 4 * (k3 + q) ^ 5) := by
    simp only [g2tDen, pw, pow_one, C01_power]; ring
  have e4 := g2tReg_poly k1 k2 k3 q
  have m1 := g2tRegN1_eq k1 k2 k3 q h1 h2 h3 hq
  have m2 := g2tRegN2_eq k1 k2 k3 q h1 h2 h3 hq
  have m3 := g2tRegN3_eq k1 k2 k3 q h1 h2 h3 hq
  have e5 : g2tC0 (pw k1) (pw k2) (pw k3) (pw q) = g2tRegN0 (pw k1) (pw k2) (pw k3) (pw q) / (1552320 * k1 ^ 8 * k2 ^ 8 * k3 ^ 4 * q ^ 4) := by
    simp only [g2tC0, g2tRegN0, pw, pow_one]
  simp only [← add_div]
  rw [e3, e5]
  generalize g2tPoly0 (pw k1) (pw k2) (pw k3) (pw q) + g2tPoly1 (pw k1) (pw k2) (pw k3) (pw q) + g2tPoly2 (pw k1) (pw k2) (pw k3) (pw q) + g2tPoly3 (pw k1) (pw k2) (pw k3) (pw q) + g2tPoly4 (pw k1) (pw k2) (pw k3) (pw q) + g2tPoly5 (pw k1) (pw k2) (pw k3) (pw q) + g2tPoly6 (pw k1) (pw k2) (pw k3) (pw q) + g2tPoly7 (pw k1) (pw k2) (pw k3) (pw q) + g2tPoly8 (pw k1) (pw k2) (pw k3) (pw q) + g2tPoly9 (pw k1) (pw k2) (pw k3) (pw q) + g2tPoly10 (pw k1) (pw k2) (pw k3) (pw q) + g2tPoly11 (pw k1) (pw k2) (pw k3) (pw q) + g2tPoly12 (pw k1) (pw k2) (pw k3) (pw q) + g2tPoly13 (pw k1) (pw k2) (pw k3) (pw q) + g2tPoly14 (pw k1) (pw k2) (pw k3) (pw q) + g2tPoly15 (pw k1) (pw k2) (pw k3) (pw q) + g2tPoly16 (pw k1) (pw k2) (pw k3) (pw q) = p at *
  have e6 : p = π * ((k3 + q) ^ 5 * ((k2 + q) ^ 4 * ((k1 + q) ^ 4 * g2tRegN0 (pw k1) (pw k2) (pw k3) (pw q) + 5 * k2 ^ 6 * k3 ^ 4 * g2tRegN1 (pw k1) (pw k2) (pw k3) (pw q)) +
      (k1 + q) ^ 4 * (5 * k1 ^ 6 * k3 ^ 4 * g2tRegN2 (pw k1) (pw k2) (pw k3) (pw q))) + (k1 + q) ^ 4 * ((k2 + q) ^ 4 * (35 * k1 ^ 6 * k2 ^ 6 * g2tRegN3 (pw k1) (pw k2) (pw k3) (pw q)))) /
      (8 * k1 ^ 3 * k2 ^ 3 * k3 ^ 3) := by
    rw [eq_div_iff (by positivity)]; linarith
  have e7 : 4 * (p / (776160 * k1 ^ 5 * k2 ^ 5 * k3 * q ^ 4 * ((k1 + q) ^ 4 * (k2 + q) ^ 4 * (k3 + q) ^ 5))) =
      π * (g2tRegN0 (pw k1) (pw k2) (pw k3) (pw q) / (1552320 * k1 ^ 8 * k2 ^ 8 * k3 ^ 4 * q ^ 4) +
        g2tRegN1 (pw k1) (pw k2) (pw k3) (pw q) / (310464 * k1 ^ 8 * k2 ^ 2 * q ^ 4) / (k1 + q) ^ 4 +
        g2tRegN2 (pw k1) (pw k2) (pw k3) (pw q) / (310464 * k1 ^ 2 * k2 ^ 8 * q ^ 4) / (k2 + q) ^ 4 +
        g2tRegN3 (pw k1) (pw k2) (pw k3) (pw q) / (44352 * k1 ^ 2 * k2 ^ 2 * k3 ^ 4 * q ^ 4) / (k3 + q) ^ 5) := by
    rw [e6]
    generalize g2tRegN0 (pw k1) (pw k2) (pw k3) (pw q) = r0
    generalize g2tRegN1 (pw k1) (pw k2) (pw k3) (pw q) = r1
    generalize g2tRegN2 (pw k1) (pw k2) (pw k3) (pw q) = r2
    generalize g2tRegN3 (pw k1) (pw k2) (pw k3) (pw q) = r3
    field_simp
    ring
  rw [← m1, ← m2, ← m3] at e7
  linear_combination e7 + e1 + e2

end

end Verif
