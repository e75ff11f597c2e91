import Verif.Proofs.Gamma2Asym

/-!
# The second-order loop kernels at small loop wavenumber

Remainders found by `tools/g2limits` and checked here.
-/

set_option linter.unusedSimpArgs false

namespace Verif

noncomputable section

open Real Asymptotics Filter Topology

/-- Remainder of `kernel_gamma2d_highk` after expanding the exact kernel at small `q` (`src/gamma2d_1loop.c:10-132`). -/
def g2dHighRem (k1 k2 k3 q : ℕ → ℝ) : ℝ :=
  ((-(18816*k1 24*k2 10*k3 6) + 10752*k1 24*k2 8*k3 8 + 37632*k1 22*k2 12*k3 6 - 15680*k1 22*k2 10*k3 8 - 31360*k1 22*k2 8*k3 10 - 462*k1
    20*k2 14*k3 6 + 47040*k1 20*k2 12*k3 8 + 47040*k1 20*k2 10*k3 10 + 167596*k1 20*k2 8*k3 12 - 18354*k1 18*k2 16*k3 6 - 353584*k1 18*k2
    14*k3 8 - 11760*k1 18*k2 12*k3 10 - 606045*k1 18*k2 10*k3 12 - 315849*k1 18*k2 8*k3 14 - 18354*k1 16*k2 18*k3 6 + 623616*k1 16*k2 16*k3
    8 + 278866*k1 16*k2 14*k3 10 + 479418*k1 16*k2 12*k3 12 + 625992*k1 16*k2 10*k3 14 + 173926*k1 16*k2 8*k3 16 - 462*k1 14*k2 20*k3 6 -
    353584*k1 14*k2 18*k3 8 + 278866*k1 14*k2 16*k3 10 + 24714*k1 14*k2 14*k3 12 + 154313*k1 14*k2 12*k3 14 - 136807*k1 14*k2 10*k3 16 +
    47927*k1 14*k2 8*k3 18 + 37632*k1 12*k2 22*k3 6 + 47040*k1 12*k2 20*k3 8 - 11760*k1 12*k2 18*k3 10 + 479418*k1 12*k2 16*k3 12 +
    154313*k1 12*k2 14*k3 14 - 30240*k1 12*k2 12*k3 16 + 120960*k1 12*k2 10*k3 18 - 80640*k1 12*k2 8*k3 20 - 18816*k1 10*k2 24*k3 6 -
    15680*k1 10*k2 22*k3 8 + 47040*k1 10*k2 20*k3 10 - 606045*k1 10*k2 18*k3 12 + 625992*k1 10*k2 16*k3 14 - 136807*k1 10*k2 14*k3 16 +
    120960*k1 10*k2 12*k3 18 - 129024*k1 10*k2 10*k3 20 + 27648*k1 10*k2 8*k3 22 + 10752*k1 8*k2 24*k3 8 - 31360*k1 8*k2 22*k3 10 +
    167596*k1 8*k2 20*k3 12 - 315849*k1 8*k2 18*k3 14 + 173926*k1 8*k2 16*k3 16 + 47927*k1 8*k2 14*k3 18 - 80640*k1 8*k2 12*k3 20 + 27648*k1
    8*k2 10*k3 22) + (24192*k1 24*k2 10*k3 4 + 37632*k1 24*k2 8*k3 6 - 5376*k1 24*k2 6*k3 8 - 84672*k1 22*k2 12*k3 4 - 159936*k1 22*k2 10*k3
    6 - 90944*k1 22*k2 8*k3 8 + 18816*k1 22*k2 6*k3 10 + 106617*k1 20*k2 14*k3 4 + 164640*k1 20*k2 12*k3 6 + 141120*k1 20*k2 10*k3 8 +
    78400*k1 20*k2 8*k3 10 - 17595*k1 20*k2 6*k3 12 - 46137*k1 18*k2 16*k3 4 - 6552*k1 18*k2 14*k3 6 - 29400*k1 18*k2 12*k3 8 - 29400*k1
    18*k2 10*k3 10 - 98622*k1 18*k2 8*k3 12 + 9138*k1 18*k2 6*k3 14 - 46137*k1 16*k2 18*k3 4 - 67536*k1 16*k2 16*k3 6 - 4319*k1 16*k2 14*k3
    8 + 102645*k1 16*k2 10*k3 12 - 63554*k1 16*k2 8*k3 14 + 9501*k1 16*k2 6*k3 16 + 106617*k1 14*k2 20*k3 4 - 6552*k1 14*k2 18*k3 6 -
    4319*k1 14*k2 16*k3 8 - 14602*k1 14*k2 14*k3 10 - 43884*k1 14*k2 12*k3 12 + 14172*k1 14*k2 10*k3 14 + 111588*k1 14*k2 8*k3 16 - 49044*k1
    14*k2 6*k3 18 - 84672*k1 12*k2 22*k3 4 + 164640*k1 12*k2 20*k3 6 - 29400*k1 12*k2 18*k3 8 - 43884*k1 12*k2 14*k3 12 + 90720*k1 12*k2
    10*k3 16 - 241920*k1 12*k2 8*k3 18 + 48384*k1 12*k2 6*k3 20 + 24192*k1 10*k2 24*k3 4 - 159936*k1 10*k2 22*k3 6 + 141120*k1 10*k2 20*k3 8
    - 29400*k1 10*k2 18*k3 10 + 102645*k1 10*k2 16*k3 12 + 14172*k1 10*k2 14*k3 14 + 90720*k1 10*k2 12*k3 16 - 302400*k1 10*k2 10*k3 18 +
    209664*k1 10*k2 8*k3 20 - 13824*k1 10*k2 6*k3 22 + 37632*k1 8*k2 24*k3 6 - 90944*k1 8*k2 22*k3 8 + 78400*k1 8*k2 20*k3 10 - 98622*k1
    8*k2 18*k3 12 - 63554*k1 8*k2 16*k3 14 + 111588*k1 8*k2 14*k3 16 - 241920*k1 8*k2 12*k3 18 + 209664*k1 8*k2 10*k3 20 - 55296*k1 8*k2
    8*k3 22 - 5376*k1 6*k2 24*k3 8 + 18816*k1 6*k2 22*k3 10 - 17595*k1 6*k2 20*k3 12 + 9138*k1 6*k2 18*k3 14 + 9501*k1 6*k2 16*k3 16 -
    49044*k1 6*k2 14*k3 18 + 48384*k1 6*k2 12*k3 20 - 13824*k1 6*k2 10*k3 22)*q 2 + (-(48384*k1 24*k2 8*k3 4) - 18816*k1 24*k2 6*k3 6 +
    169344*k1 22*k2 10*k3 4 + 206976*k1 22*k2 8*k3 6 + 65856*k1 22*k2 6*k3 8 - 126*k1 20*k2 14*k3 2 - 211680*k1 20*k2 12*k3 4 - 294000*k1
    20*k2 10*k3 6 - 250880*k1 20*k2 8*k3 8 - 82320*k1 20*k2 6*k3 10 - 31641*k1 20*k2 4*k3 12 + 126*k1 18*k2 16*k3 2 + 139776*k1 18*k2 14*k3
    4 + 94080*k1 18*k2 12*k3 6 + 94080*k1 18*k2 10*k3 8 + 94080*k1 18*k2 8*k3 10 + 210396*k1 18*k2 6*k3 12 + 56952*k1 18*k2 4*k3 14 + 126*k1
    16*k2 18*k3 2 - 95256*k1 16*k2 16*k3 4 - 23562*k1 16*k2 14*k3 6 - 172689*k1 16*k2 8*k3 12 - 61266*k1 16*k2 6*k3 14 - 20301*k1 16*k2 4*k3
    16 - 126*k1 14*k2 20*k3 2 + 139776*k1 14*k2 18*k3 4 - 23562*k1 14*k2 16*k3 6 - 2688*k1 14*k2 14*k3 8 + 42654*k1 14*k2 10*k3 12 -
    40062*k1 14*k2 8*k3 14 - 62382*k1 14*k2 6*k3 16 - 5010*k1 14*k2 4*k3 18 - 211680*k1 12*k2 20*k3 4 + 94080*k1 12*k2 18*k3 6 - 90720*k1
    12*k2 8*k3 16 + 120960*k1 12*k2 6*k3 18 + 169344*k1 10*k2 22*k3 4 - 294000*k1 10*k2 20*k3 6 + 94080*k1 10*k2 18*k3 8 + 42654*k1 10*k2
    14*k3 12 - 90720*k1 10*k2 10*k3 16 + 241920*k1 10*k2 8*k3 18 - 96768*k1 10*k2 6*k3 20 - 48384*k1 8*k2 24*k3 4 + 206976*k1 8*k2 22*k3 6 -
    250880*k1 8*k2 20*k3 8 + 94080*k1 8*k2 18*k3 10 - 172689*k1 8*k2 16*k3 12 - 40062*k1 8*k2 14*k3 14 - 90720*k1 8*k2 12*k3 16 + 241920*k1
    8*k2 10*k3 18 - 177408*k1 8*k2 8*k3 20 + 27648*k1 8*k2 6*k3 22 - 18816*k1 6*k2 24*k3 6 + 65856*k1 6*k2 22*k3 8 - 82320*k1 6*k2 20*k3 10
    + 210396*k1 6*k2 18*k3 12 - 61266*k1 6*k2 16*k3 14 - 62382*k1 6*k2 14*k3 16 + 120960*k1 6*k2 12*k3 18 - 96768*k1 6*k2 10*k3 20 +
    27648*k1 6*k2 8*k3 22 - 31641*k1 4*k2 20*k3 12 + 56952*k1 4*k2 18*k3 14 - 20301*k1 4*k2 16*k3 16 - 5010*k1 4*k2 14*k3 18)*q 4 +
    (24192*k1 24*k2 6*k3 4 - 84672*k1 22*k2 8*k3 4 - 84672*k1 22*k2 6*k3 6 + 2835*k1 20*k2 14 + 105840*k1 20*k2 10*k3 4 + 141120*k1 20*k2
    8*k3 6 + 105840*k1 20*k2 6*k3 8 + 26595*k1 20*k2 2*k3 12 - 2835*k1 18*k2 16 - 42084*k1 18*k2 14*k3 2 - 52920*k1 18*k2 12*k3 4 - 52920*k1
    18*k2 10*k3 6 - 52920*k1 18*k2 8*k3 8 - 52920*k1 18*k2 6*k3 10 - 116730*k1 18*k2 4*k3 12 - 50850*k1 18*k2 2*k3 14 - 2835*k1 16*k2 18 +
    76608*k1 16*k2 16*k3 2 + 39711*k1 16*k2 14*k3 4 + 113499*k1 16*k2 6*k3 12 + 77466*k1 16*k2 4*k3 14 + 21915*k1 16*k2 2*k3 16 + 2835*k1
    14*k2 20 - 42084*k1 14*k2 18*k3 2 + 39711*k1 14*k2 16*k3 4 - 462*k1 14*k2 14*k3 6 - 23364*k1 14*k2 8*k3 12 + 20340*k1 14*k2 6*k3 14 +
    684*k1 14*k2 4*k3 16 + 2340*k1 14*k2 2*k3 18 - 52920*k1 12*k2 18*k3 4 + 30240*k1 12*k2 6*k3 16 + 105840*k1 10*k2 20*k3 4 - 52920*k1
    10*k2 18*k3 6 + 30240*k1 10*k2 8*k3 16 - 60480*k1 10*k2 6*k3 18 - 84672*k1 8*k2 22*k3 4 + 141120*k1 8*k2 20*k3 6 - 52920*k1 8*k2 18*k3 8
    - 23364*k1 8*k2 14*k3 12 + 30240*k1 8*k2 10*k3 16 - 80640*k1 8*k2 8*k3 18 + 48384*k1 8*k2 6*k3 20 + 24192*k1 6*k2 24*k3 4 - 84672*k1
    6*k2 22*k3 6 + 105840*k1 6*k2 20*k3 8 - 52920*k1 6*k2 18*k3 10 + 113499*k1 6*k2 16*k3 12 + 20340*k1 6*k2 14*k3 14 + 30240*k1 6*k2 12*k3
    16 - 60480*k1 6*k2 10*k3 18 + 48384*k1 6*k2 8*k3 20 - 13824*k1 6*k2 6*k3 22 - 116730*k1 4*k2 18*k3 12 + 77466*k1 4*k2 16*k3 14 + 684*k1
    4*k2 14*k3 16 + 26595*k1 2*k2 20*k3 12 - 50850*k1 2*k2 18*k3 14 + 21915*k1 2*k2 16*k3 16 + 2340*k1 2*k2 14*k3 18)*q 6 + (-(2475*k1 20*k3
    12) + 11340*k1 18*k2 14 + 12825*k1 18*k2 2*k3 12 + 7425*k1 18*k3 14 - 22680*k1 16*k2 16 - 7560*k1 16*k2 14*k3 2 - 7065*k1 16*k2 4*k3 12
    - 19710*k1 16*k2 2*k3 14 - 7425*k1 16*k3 16 + 11340*k1 14*k2 18 - 7560*k1 14*k2 16*k3 2 - 3780*k1 14*k2 14*k3 4 - 3285*k1 14*k2 6*k3 12
    - 6075*k1 14*k2 4*k3 14 + 6885*k1 14*k2 2*k3 16 + 2475*k1 14*k3 18 - 3285*k1 6*k2 14*k3 12 - 7065*k1 4*k2 16*k3 12 - 6075*k1 4*k2 14*k3
    14 + 12825*k1 2*k2 18*k3 12 - 19710*k1 2*k2 16*k3 14 + 6885*k1 2*k2 14*k3 16 - 2475*k2 20*k3 12 + 7425*k2 18*k3 14 - 7425*k2 16*k3 16 +
    2475*k2 14*k3 18)*q 8)/(10866240*k1 16*k2 16*k3 12*q 0)

theorem g2dCL1_zero (k1 k2 k3 : ℝ) : (fun q => g2dCL1 (pw k1) (pw k2) (pw k3) (pw q)) =O[𝓝[>] 0] fun q : ℝ => q ^ (-5 : ℤ) := by
  unfold g2dCL1
  exact zero_frac6 _ _ _ _ _ _ _ _ _ (by norm_num)

theorem g2dCL2_zero (k1 k2 k3 : ℝ) : (fun q => g2dCL2 (pw k1) (pw k2) (pw k3) (pw q)) =O[𝓝[>] 0] fun q : ℝ => q ^ (-5 : ℤ) := by
  unfold g2dCL2
  exact zero_frac6 _ _ _ _ _ _ _ _ _ (by norm_num)

theorem g2dCL3_zero (k1 k2 k3 : ℝ) : (fun q => g2dCL3 (pw k1) (pw k2) (pw k3) (pw q)) =O[𝓝[>] 0] fun q : ℝ => q ^ (-5 : ℤ) := by
  unfold g2dCL3
  exact zero_frac6 _ _ _ _ _ _ _ _ _ (by norm_num)

theorem g2dCW1_zero (k1 k2 k3 : ℝ) : (fun q => g2dCW1 (pw k1) (pw k2) (pw k3) (pw q)) =O[𝓝[>] 0] fun q : ℝ => q ^ (-5 : ℤ) := by
  unfold g2dCW1
  exact zero_frac5 _ _ _ _ _ _ _ _ (by norm_num)

theorem g2dCW2_zero (k1 k2 k3 : ℝ) : (fun q => g2dCW2 (pw k1) (pw k2) (pw k3) (pw q)) =O[𝓝[>] 0] fun q : ℝ => q ^ (-5 : ℤ) := by
  unfold g2dCW2
  exact zero_frac5 _ _ _ _ _ _ _ _ (by norm_num)

theorem g2dCW3_zero (k1 k2 k3 : ℝ) : (fun q => g2dCW3 (pw k1) (pw k2) (pw k3) (pw q)) =O[𝓝[>] 0] fun q : ℝ => q ^ (-5 : ℤ) := by
  unfold g2dCW3
  exact zero_frac5 _ _ _ _ _ _ _ _ (by norm_num)

theorem g2dHighRem_zero (k1 k2 k3 : ℝ) : (fun q => g2dHighRem (pw k1) (pw k2) (pw k3) (pw q)) =O[𝓝[>] 0] fun q : ℝ => q ^ (0 : ℤ) := by
  unfold g2dHighRem
  exact zero_frac5 _ _ _ _ _ _ _ _ (by norm_num)

set_option maxRecDepth 4000 in
set_option maxHeartbeats 4000000 in
theorem g2d_high_identity (k1 k2 k3 q : ℝ) (h1 : k1 ≠ 0) (h2 : k2 ≠ 0) (h3 : k3 ≠ 0) (hq : q ≠ 0) :
    π * (g2dC0 (pw k1) (pw k2) (pw k3) (pw q) + g2dCL1 (pw k1) (pw k2) (pw k3) (pw q) * (4 * artSum 4 (q / k1)) + g2dCL2 (pw k1) (pw k2) (pw k3) (pw q) * (4 * artSum 4 (q / k2)) +
      g2dCL3 (pw k1) (pw k2) (pw k3) (pw q) * (4 * artSum 4 (q / k3)) + g2dCW1 (pw k1) (pw k2) (pw k3) (pw q) * triZero k1 k2 k3 q +
      g2dCW2 (pw k1) (pw k2) (pw k3) (pw q) * triZero k1 k3 k2 q + g2dCW3 (pw k1) (pw k2) (pw k3) (pw q) * triZero k2 k3 k1 q) - g2dHighk k1 k2 k3 q =
    π * (q ^ 4 * g2dHighRem (pw k1) (pw k2) (pw k3) (pw q)) := by
  simp only [artSum, Finset.sum_range_succ, Finset.sum_range_zero, triZero, triZeroE]
  push_cast
  simp only [g2dC0, g2dCL1, g2dCL2, g2dCL3, g2dCW1, g2dCW2, g2dCW3, g2dHighk, g2dHighkE, g2dHighRem, pw, pow_one, pow_zero,
    C01_power, Real.rpow_ofNat]
  field_simp
  ring

theorem g2d_high (k1 k2 k3 : ℝ) (h : Triangle k1 k2 k3) :
    (fun q => g2dExact k1 k2 k3 q - g2dHighk k1 k2 k3 q) =O[𝓝[>] 0] fun q : ℝ => q ^ (4 : ℤ) := by
  have step : ∀ (c x : ℝ → ℝ) (m n : ℤ), m + n = 4 → (c =O[𝓝[>] 0] fun q : ℝ => q ^ m) → (x =O[𝓝[>] 0] fun q : ℝ => q ^ n) →
      (fun q => c q * x q) =O[𝓝[>] 0] fun q : ℝ => q ^ (4 : ℤ) := fun c x m n e hc hx => by
    refine (hc.mul hx).congr' EventuallyEq.rfl ?_
    filter_upwards [self_mem_nhdsWithin] with q hq
    have hq : (0 : ℝ) < q := hq
    rw [← zpow_add₀ hq.ne', e]
  have l1 := step _ _ (-5) 9 (by norm_num) (g2dCL1_zero k1 k2 k3) (LFunc_zero k1 h.pos1)
  have l2 := step _ _ (-5) 9 (by norm_num) (g2dCL2_zero k1 k2 k3) (LFunc_zero k2 h.pos2)
  have l3 := step _ _ (-5) 9 (by norm_num) (g2dCL3_zero k1 k2 k3) (LFunc_zero k3 h.pos3)
  have w1 := step _ _ (-5) 9 (by norm_num) (g2dCW1_zero k1 k2 k3) (triLog_zero k1 k2 k3 h.pos1 h.pos2 h.pos3)
  have w2 := step _ _ (-5) 9 (by norm_num) (g2dCW2_zero k1 k2 k3) (triLog_zero k1 k3 k2 h.pos1 h.pos3 h.pos2)
  have w3 := step _ _ (-5) 9 (by norm_num) (g2dCW3_zero k1 k2 k3) (triLog_zero k2 k3 k1 h.pos2 h.pos3 h.pos1)
  have r := step _ _ 4 0 (by norm_num) (isBigO_refl (fun q : ℝ => q ^ (4 : ℤ)) (𝓝[>] 0)) (g2dHighRem_zero k1 k2 k3)
  refine ((((((l1.add l2).add l3).add w1).add w2).add w3).add r).const_mul_left π |>.congr' ?_ EventuallyEq.rfl
  filter_upwards [Ioo_mem_nhdsGT h.pos1, Ioo_mem_nhdsGT h.pos2, Ioo_mem_nhdsGT h.pos3] with q q1 q2 q3
  have hq : 0 < q := q1.1
  rw [g2dExact_form k1 k2 k3 q h hq q1.2.ne q2.2.ne q3.2.ne]
  rw [show q ^ (4 : ℤ) = q ^ 4 from by norm_cast]
  linear_combination -g2d_high_identity k1 k2 k3 q h.pos1.ne' h.pos2.ne' h.pos3.ne' hq.ne'

/-- Remainder of `kernel_gamma2t_highk` after expanding the exact kernel at small `q` (`src/gamma2t_1loop.c:10-117`). -/
def g2tHighRem (k1 k2 k3 q : ℕ → ℝ) : ℝ :=
  ((13440*k1 24*k2 10*k3 6 + 43008*k1 24*k2 8*k3 8 - 56448*k1 22*k2 12*k3 6 - 166208*k1 22*k2 10*k3 8 - 125440*k1 22*k2 8*k3 10 + 86856*k1
    20*k2 14*k3 6 + 188160*k1 20*k2 12*k3 8 + 188160*k1 20*k2 10*k3 10 + 170852*k1 20*k2 8*k3 12 - 43848*k1 18*k2 16*k3 6 - 150304*k1 18*k2
    14*k3 8 - 47040*k1 18*k2 12*k3 10 - 245135*k1 18*k2 10*k3 12 - 99519*k1 18*k2 8*k3 14 - 43848*k1 16*k2 18*k3 6 + 173376*k1 16*k2 16*k3 8
    + 95368*k1 16*k2 14*k3 10 + 159806*k1 16*k2 12*k3 12 + 204440*k1 16*k2 10*k3 14 - 133454*k1 16*k2 8*k3 16 + 86856*k1 14*k2 20*k3 6 -
    150304*k1 14*k2 18*k3 8 + 95368*k1 14*k2 16*k3 10 - 3158*k1 14*k2 14*k3 12 - 4193*k1 14*k2 12*k3 14 - 154165*k1 14*k2 10*k3 16 +
    356521*k1 14*k2 8*k3 18 - 56448*k1 12*k2 22*k3 6 + 188160*k1 12*k2 20*k3 8 - 47040*k1 12*k2 18*k3 10 + 159806*k1 12*k2 16*k3 12 -
    4193*k1 12*k2 14*k3 14 - 120960*k1 12*k2 12*k3 16 + 483840*k1 12*k2 10*k3 18 - 322560*k1 12*k2 8*k3 20 + 13440*k1 10*k2 24*k3 6 -
    166208*k1 10*k2 22*k3 8 + 188160*k1 10*k2 20*k3 10 - 245135*k1 10*k2 18*k3 12 + 204440*k1 10*k2 16*k3 14 - 154165*k1 10*k2 14*k3 16 +
    483840*k1 10*k2 12*k3 18 - 516096*k1 10*k2 10*k3 20 + 110592*k1 10*k2 8*k3 22 + 43008*k1 8*k2 24*k3 8 - 125440*k1 8*k2 22*k3 10 +
    170852*k1 8*k2 20*k3 12 - 99519*k1 8*k2 18*k3 14 - 133454*k1 8*k2 16*k3 16 + 356521*k1 8*k2 14*k3 18 - 322560*k1 8*k2 12*k3 20 +
    110592*k1 8*k2 10*k3 22) + (8064*k1 24*k2 10*k3 4 - 26880*k1 24*k2 8*k3 6 - 21504*k1 24*k2 6*k3 8 - 28224*k1 22*k2 12*k3 4 + 84672*k1
    22*k2 10*k3 6 + 153664*k1 22*k2 8*k3 8 + 75264*k1 22*k2 6*k3 10 + 34923*k1 20*k2 14*k3 4 - 117600*k1 20*k2 12*k3 6 - 211680*k1 20*k2
    10*k3 8 - 203840*k1 20*k2 8*k3 10 - 92105*k1 20*k2 6*k3 12 - 14763*k1 18*k2 16*k3 4 + 119784*k1 18*k2 14*k3 6 + 76440*k1 18*k2 12*k3 8 +
    76440*k1 18*k2 10*k3 10 + 53366*k1 18*k2 8*k3 12 + 45594*k1 18*k2 6*k3 14 - 14763*k1 16*k2 18*k3 4 - 114912*k1 16*k2 16*k3 6 - 28133*k1
    16*k2 14*k3 8 + 34215*k1 16*k2 10*k3 12 - 66622*k1 16*k2 8*k3 14 + 85095*k1 16*k2 6*k3 16 + 34923*k1 14*k2 20*k3 4 + 119784*k1 14*k2
    18*k3 6 - 28133*k1 14*k2 16*k3 8 - 7126*k1 14*k2 14*k3 10 - 14628*k1 14*k2 12*k3 12 + 47272*k1 14*k2 10*k3 14 + 329268*k1 14*k2 8*k3 16
    - 230584*k1 14*k2 6*k3 18 - 28224*k1 12*k2 22*k3 4 - 117600*k1 12*k2 20*k3 6 + 76440*k1 12*k2 18*k3 8 - 14628*k1 12*k2 14*k3 12 +
    362880*k1 12*k2 10*k3 16 - 967680*k1 12*k2 8*k3 18 + 193536*k1 12*k2 6*k3 20 + 8064*k1 10*k2 24*k3 4 + 84672*k1 10*k2 22*k3 6 -
    211680*k1 10*k2 20*k3 8 + 76440*k1 10*k2 18*k3 10 + 34215*k1 10*k2 16*k3 12 + 47272*k1 10*k2 14*k3 14 + 362880*k1 10*k2 12*k3 16 -
    1209600*k1 10*k2 10*k3 18 + 838656*k1 10*k2 8*k3 20 - 55296*k1 10*k2 6*k3 22 - 26880*k1 8*k2 24*k3 6 + 153664*k1 8*k2 22*k3 8 -
    203840*k1 8*k2 20*k3 10 + 53366*k1 8*k2 18*k3 12 - 66622*k1 8*k2 16*k3 14 + 329268*k1 8*k2 14*k3 16 - 967680*k1 8*k2 12*k3 18 +
    838656*k1 8*k2 10*k3 20 - 221184*k1 8*k2 8*k3 22 - 21504*k1 6*k2 24*k3 8 + 75264*k1 6*k2 22*k3 10 - 92105*k1 6*k2 20*k3 12 + 45594*k1
    6*k2 18*k3 14 + 85095*k1 6*k2 16*k3 16 - 230584*k1 6*k2 14*k3 18 + 193536*k1 6*k2 12*k3 20 - 55296*k1 6*k2 10*k3 22)*q 2 + (-(16128*k1
    24*k2 8*k3 4) + 13440*k1 24*k2 6*k3 6 + 56448*k1 22*k2 10*k3 4 - 47040*k1 22*k2 6*k3 8 + 2268*k1 20*k2 14*k3 2 - 70560*k1 20*k2 12*k3 4
    - 11760*k1 20*k2 10*k3 6 + 31360*k1 20*k2 8*k3 8 + 58800*k1 20*k2 6*k3 10 - 10547*k1 20*k2 4*k3 12 - 2268*k1 18*k2 16*k3 2 + 10248*k1
    18*k2 14*k3 4 - 11760*k1 18*k2 12*k3 6 - 11760*k1 18*k2 10*k3 8 - 11760*k1 18*k2 8*k3 10 + 27012*k1 18*k2 6*k3 12 - 1740*k1 18*k2 4*k3
    14 - 2268*k1 16*k2 18*k3 2 + 34776*k1 16*k2 16*k3 4 + 25872*k1 16*k2 14*k3 6 - 57563*k1 16*k2 8*k3 12 + 40650*k1 16*k2 6*k3 14 +
    29841*k1 16*k2 4*k3 16 + 2268*k1 14*k2 20*k3 2 + 10248*k1 14*k2 18*k3 4 + 25872*k1 14*k2 16*k3 6 - 588*k1 14*k2 14*k3 8 + 14218*k1 14*k2
    10*k3 12 - 44550*k1 14*k2 8*k3 14 - 211314*k1 14*k2 6*k3 16 - 17554*k1 14*k2 4*k3 18 - 70560*k1 12*k2 20*k3 4 - 11760*k1 12*k2 18*k3 6 -
    362880*k1 12*k2 8*k3 16 + 483840*k1 12*k2 6*k3 18 + 56448*k1 10*k2 22*k3 4 - 11760*k1 10*k2 20*k3 6 - 11760*k1 10*k2 18*k3 8 + 14218*k1
    10*k2 14*k3 12 - 362880*k1 10*k2 10*k3 16 + 967680*k1 10*k2 8*k3 18 - 387072*k1 10*k2 6*k3 20 - 16128*k1 8*k2 24*k3 4 + 31360*k1 8*k2
    20*k3 8 - 11760*k1 8*k2 18*k3 10 - 57563*k1 8*k2 16*k3 12 - 44550*k1 8*k2 14*k3 14 - 362880*k1 8*k2 12*k3 16 + 967680*k1 8*k2 10*k3 18 -
    709632*k1 8*k2 8*k3 20 + 110592*k1 8*k2 6*k3 22 + 13440*k1 6*k2 24*k3 6 - 47040*k1 6*k2 22*k3 8 + 58800*k1 6*k2 20*k3 10 + 27012*k1 6*k2
    18*k3 12 + 40650*k1 6*k2 16*k3 14 - 211314*k1 6*k2 14*k3 16 + 483840*k1 6*k2 12*k3 18 - 387072*k1 6*k2 10*k3 20 + 110592*k1 6*k2 8*k3 22
    - 10547*k1 4*k2 20*k3 12 - 1740*k1 4*k2 18*k3 14 + 29841*k1 4*k2 16*k3 16 - 17554*k1 4*k2 14*k3 18)*q 4 + (8064*k1 24*k2 6*k3 4 -
    28224*k1 22*k2 8*k3 4 - 28224*k1 22*k2 6*k3 6 + 945*k1 20*k2 14 + 35280*k1 20*k2 10*k3 4 + 47040*k1 20*k2 8*k3 6 + 35280*k1 20*k2 6*k3 8
    + 8865*k1 20*k2 2*k3 12 - 945*k1 18*k2 16 - 4788*k1 18*k2 14*k3 2 - 17640*k1 18*k2 12*k3 4 - 17640*k1 18*k2 10*k3 6 - 17640*k1 18*k2
    8*k3 8 - 17640*k1 18*k2 6*k3 10 - 38910*k1 18*k2 4*k3 12 - 4410*k1 18*k2 2*k3 14 - 945*k1 16*k2 18 + 7056*k1 16*k2 16*k3 2 + 7077*k1
    16*k2 14*k3 4 + 37833*k1 16*k2 6*k3 12 + 15702*k1 16*k2 4*k3 14 - 17775*k1 16*k2 2*k3 16 + 945*k1 14*k2 20 - 4788*k1 14*k2 18*k3 2 +
    7077*k1 14*k2 16*k3 4 - 3234*k1 14*k2 14*k3 6 - 7788*k1 14*k2 8*k3 12 + 840*k1 14*k2 6*k3 14 - 6372*k1 14*k2 4*k3 16 + 13320*k1 14*k2
    2*k3 18 - 17640*k1 12*k2 18*k3 4 + 120960*k1 12*k2 6*k3 16 + 35280*k1 10*k2 20*k3 4 - 17640*k1 10*k2 18*k3 6 + 120960*k1 10*k2 8*k3 16 -
    241920*k1 10*k2 6*k3 18 - 28224*k1 8*k2 22*k3 4 + 47040*k1 8*k2 20*k3 6 - 17640*k1 8*k2 18*k3 8 - 7788*k1 8*k2 14*k3 12 + 120960*k1 8*k2
    10*k3 16 - 322560*k1 8*k2 8*k3 18 + 193536*k1 8*k2 6*k3 20 + 8064*k1 6*k2 24*k3 4 - 28224*k1 6*k2 22*k3 6 + 35280*k1 6*k2 20*k3 8 -
    17640*k1 6*k2 18*k3 10 + 37833*k1 6*k2 16*k3 12 + 840*k1 6*k2 14*k3 14 + 120960*k1 6*k2 12*k3 16 - 241920*k1 6*k2 10*k3 18 + 193536*k1
    6*k2 8*k3 20 - 55296*k1 6*k2 6*k3 22 - 38910*k1 4*k2 18*k3 12 + 15702*k1 4*k2 16*k3 14 - 6372*k1 4*k2 14*k3 16 + 8865*k1 2*k2 20*k3 12 -
    4410*k1 2*k2 18*k3 14 - 17775*k1 2*k2 16*k3 16 + 13320*k1 2*k2 14*k3 18)*q 6 + (-(825*k1 20*k3 12) + 3780*k1 18*k2 14 + 4275*k1 18*k2
    2*k3 12 + 2475*k1 18*k3 14 - 7560*k1 16*k2 16 - 2520*k1 16*k2 14*k3 2 - 2355*k1 16*k2 4*k3 12 - 6570*k1 16*k2 2*k3 14 - 2475*k1 16*k3 16
    + 3780*k1 14*k2 18 - 2520*k1 14*k2 16*k3 2 - 1260*k1 14*k2 14*k3 4 - 1095*k1 14*k2 6*k3 12 - 2025*k1 14*k2 4*k3 14 + 2295*k1 14*k2 2*k3
    16 + 825*k1 14*k3 18 - 1095*k1 6*k2 14*k3 12 - 2355*k1 4*k2 16*k3 12 - 2025*k1 4*k2 14*k3 14 + 4275*k1 2*k2 18*k3 12 - 6570*k1 2*k2
    16*k3 14 + 2295*k1 2*k2 14*k3 16 - 825*k2 20*k3 12 + 2475*k2 18*k3 14 - 2475*k2 16*k3 16 + 825*k2 14*k3 18)*q 8)/(10866240*k1 16*k2
    16*k3 12*q 0)

theorem g2tCL1_zero (k1 k2 k3 : ℝ) : (fun q => g2tCL1 (pw k1) (pw k2) (pw k3) (pw q)) =O[𝓝[>] 0] fun q : ℝ => q ^ (-5 : ℤ) := by
  unfold g2tCL1
  exact zero_frac6 _ _ _ _ _ _ _ _ _ (by norm_num)

theorem g2tCL2_zero (k1 k2 k3 : ℝ) : (fun q => g2tCL2 (pw k1) (pw k2) (pw k3) (pw q)) =O[𝓝[>] 0] fun q : ℝ => q ^ (-5 : ℤ) := by
  unfold g2tCL2
  exact zero_frac6 _ _ _ _ _ _ _ _ _ (by norm_num)

theorem g2tCL3_zero (k1 k2 k3 : ℝ) : (fun q => g2tCL3 (pw k1) (pw k2) (pw k3) (pw q)) =O[𝓝[>] 0] fun q : ℝ => q ^ (-5 : ℤ) := by
  unfold g2tCL3
  exact zero_frac6 _ _ _ _ _ _ _ _ _ (by norm_num)

theorem g2tCW1_zero (k1 k2 k3 : ℝ) : (fun q => g2tCW1 (pw k1) (pw k2) (pw k3) (pw q)) =O[𝓝[>] 0] fun q : ℝ => q ^ (-5 : ℤ) := by
  unfold g2tCW1
  exact zero_frac5 _ _ _ _ _ _ _ _ (by norm_num)

theorem g2tCW2_zero (k1 k2 k3 : ℝ) : (fun q => g2tCW2 (pw k1) (pw k2) (pw k3) (pw q)) =O[𝓝[>] 0] fun q : ℝ => q ^ (-5 : ℤ) := by
  unfold g2tCW2
  exact zero_frac5 _ _ _ _ _ _ _ _ (by norm_num)

theorem g2tCW3_zero (k1 k2 k3 : ℝ) : (fun q => g2tCW3 (pw k1) (pw k2) (pw k3) (pw q)) =O[𝓝[>] 0] fun q : ℝ => q ^ (-5 : ℤ) := by
  unfold g2tCW3
  exact zero_frac5 _ _ _ _ _ _ _ _ (by norm_num)

theorem g2tHighRem_zero (k1 k2 k3 : ℝ) : (fun q => g2tHighRem (pw k1) (pw k2) (pw k3) (pw q)) =O[𝓝[>] 0] fun q : ℝ => q ^ (0 : ℤ) := by
  unfold g2tHighRem
  exact zero_frac5 _ _ _ _ _ _ _ _ (by norm_num)

set_option maxRecDepth 4000 in
set_option maxHeartbeats 4000000 in
theorem g2t_high_identity (k1 k2 k3 q : ℝ) (h1 : k1 ≠ 0) (h2 : k2 ≠ 0) (h3 : k3 ≠ 0) (hq : q ≠ 0) :
    π * (g2tC0 (pw k1) (pw k2) (pw k3) (pw q) + g2tCL1 (pw k1) (pw k2) (pw k3) (pw q) * (4 * artSum 4 (q / k1)) + g2tCL2 (pw k1) (pw k2) (pw k3) (pw q) * (4 * artSum 4 (q / k2)) +
      g2tCL3 (pw k1) (pw k2) (pw k3) (pw q) * (4 * artSum 4 (q / k3)) + g2tCW1 (pw k1) (pw k2) (pw k3) (pw q) * triZero k1 k2 k3 q +
      g2tCW2 (pw k1) (pw k2) (pw k3) (pw q) * triZero k1 k3 k2 q + g2tCW3 (pw k1) (pw k2) (pw k3) (pw q) * triZero k2 k3 k1 q) - g2tHighk k1 k2 k3 q =
    π * (q ^ 4 * g2tHighRem (pw k1) (pw k2) (pw k3) (pw q)) := by
  simp only [artSum, Finset.sum_range_succ, Finset.sum_range_zero, triZero, triZeroE]
  push_cast
  simp only [g2tC0, g2tCL1, g2tCL2, g2tCL3, g2tCW1, g2tCW2, g2tCW3, g2tHighk, g2tHighkE, g2tHighRem, pw, pow_one, pow_zero,
    C01_power, Real.rpow_ofNat]
  field_simp
  ring

theorem g2t_high (k1 k2 k3 : ℝ) (h : Triangle k1 k2 k3) :
    (fun q => g2tExact k1 k2 k3 q - g2tHighk k1 k2 k3 q) =O[𝓝[>] 0] fun q : ℝ => q ^ (4 : ℤ) := by
  have step : ∀ (c x : ℝ → ℝ) (m n : ℤ), m + n = 4 → (c =O[𝓝[>] 0] fun q : ℝ => q ^ m) → (x =O[𝓝[>] 0] fun q : ℝ => q ^ n) →
      (fun q => c q * x q) =O[𝓝[>] 0] fun q : ℝ => q ^ (4 : ℤ) := fun c x m n e hc hx => by
    refine (hc.mul hx).congr' EventuallyEq.rfl ?_
    filter_upwards [self_mem_nhdsWithin] with q hq
    have hq : (0 : ℝ) < q := hq
    rw [← zpow_add₀ hq.ne', e]
  have l1 := step _ _ (-5) 9 (by norm_num) (g2tCL1_zero k1 k2 k3) (LFunc_zero k1 h.pos1)
  have l2 := step _ _ (-5) 9 (by norm_num) (g2tCL2_zero k1 k2 k3) (LFunc_zero k2 h.pos2)
  have l3 := step _ _ (-5) 9 (by norm_num) (g2tCL3_zero k1 k2 k3) (LFunc_zero k3 h.pos3)
  have w1 := step _ _ (-5) 9 (by norm_num) (g2tCW1_zero k1 k2 k3) (triLog_zero k1 k2 k3 h.pos1 h.pos2 h.pos3)
  have w2 := step _ _ (-5) 9 (by norm_num) (g2tCW2_zero k1 k2 k3) (triLog_zero k1 k3 k2 h.pos1 h.pos3 h.pos2)
  have w3 := step _ _ (-5) 9 (by norm_num) (g2tCW3_zero k1 k2 k3) (triLog_zero k2 k3 k1 h.pos2 h.pos3 h.pos1)
  have r := step _ _ 4 0 (by norm_num) (isBigO_refl (fun q : ℝ => q ^ (4 : ℤ)) (𝓝[>] 0)) (g2tHighRem_zero k1 k2 k3)
  refine ((((((l1.add l2).add l3).add w1).add w2).add w3).add r).const_mul_left π |>.congr' ?_ EventuallyEq.rfl
  filter_upwards [Ioo_mem_nhdsGT h.pos1, Ioo_mem_nhdsGT h.pos2, Ioo_mem_nhdsGT h.pos3] with q q1 q2 q3
  have hq : 0 < q := q1.1
  rw [g2tExact_form k1 k2 k3 q h hq q1.2.ne q2.2.ne q3.2.ne]
  rw [show q ^ (4 : ℤ) = q ^ 4 from by norm_cast]
  linear_combination -g2t_high_identity k1 k2 k3 q h.pos1.ne' h.pos2.ne' h.pos3.ne' hq.ne'

end

end Verif
