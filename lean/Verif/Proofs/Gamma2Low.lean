import Verif.Proofs.Gamma2Asym

/-!
# The second-order loop kernels at large loop wavenumber

Remainders found by `tools/g2limits` and checked here.
-/

set_option linter.unusedSimpArgs false

namespace Verif

noncomputable section

open Real Asymptotics Filter Topology

/-- Remainder of `kernel_gamma2d_lowk` after expanding the exact kernel at large `q` (`src/gamma2d_1loop.c:10-132`). -/
def g2dLowRem (k1 k2 k3 q : ℕ → ℝ) : ℝ :=
  ((-(1365*k1 18) + 20370*k1 16*k2 2 + 27685*k1 16*k3 2 - 1785*k1 14*k2 4 - 74200*k1 14*k2 2*k3 2 - 21035*k1 14*k3 4 - 17220*k1 12*k2 6 +
    22155*k1 12*k2 4*k3 2 - 13650*k1 12*k2 2*k3 4 - 5285*k1 12*k3 6 - 17220*k1 6*k2 12 + 490*k1 6*k3 12 - 1785*k1 4*k2 14 + 22155*k1 4*k2
    12*k3 2 - 4410*k1 4*k2 2*k3 12 + 7840*k1 4*k3 14 + 20370*k1 2*k2 16 - 74200*k1 2*k2 14*k3 2 - 13650*k1 2*k2 12*k3 4 - 4410*k1 2*k2 4*k3
    12 - 15680*k1 2*k2 2*k3 14 - 7350*k1 2*k3 16 - 1365*k2 18 + 27685*k2 16*k3 2 - 21035*k2 14*k3 4 - 5285*k2 12*k3 6 + 490*k2 6*k3 12 +
    7840*k2 4*k3 14 - 7350*k2 2*k3 16 - 980*k3 18) + (69120*k1 16 - 255735*k1 14*k2 2 - 82320*k1 14*k3 2 + 227550*k1 12*k2 4 + 26470*k1
    12*k2 2*k3 2 + 8760*k1 12*k3 4 - 23295*k1 10*k2 6 + 42870*k1 10*k2 4*k3 2 - 3935*k1 10*k2 2*k3 4 - 5640*k1 10*k3 6 + 144816*k1 8*k2 4*k3
    4 - 23295*k1 6*k2 10 - 3360*k1 6*k2 6*k3 4 - 132720*k1 6*k2 4*k3 6 + 3325*k1 6*k3 10 + 227550*k1 4*k2 12 + 42870*k1 4*k2 10*k3 2 +
    144816*k1 4*k2 8*k3 4 - 132720*k1 4*k2 6*k3 6 + 118944*k1 4*k2 4*k3 8 - 22085*k1 4*k2 2*k3 10 + 10080*k1 4*k3 12 - 255735*k1 2*k2 14 +
    26470*k1 2*k2 12*k3 2 - 3935*k1 2*k2 10*k3 4 - 22085*k1 2*k2 4*k3 10 - 8400*k1 2*k2 2*k3 12 - 12635*k1 2*k3 14 + 69120*k2 16 - 82320*k2
    14*k3 2 + 8760*k2 12*k3 4 - 5640*k2 10*k3 6 + 3325*k2 6*k3 10 + 10080*k2 4*k3 12 - 12635*k2 2*k3 14 - 4690*k3 16)*q 2 + (-(108102*k1 14)
    + 431871*k1 12*k2 2 + 89958*k1 12*k3 2 - 416448*k1 10*k2 4 + 155150*k1 10*k2 2*k3 2 + 10902*k1 10*k3 4 + 80079*k1 8*k2 6 + 44220*k1 8*k2
    4*k3 2 - 171677*k1 8*k2 2*k3 4 + 14442*k1 8*k3 6 + 80079*k1 6*k2 8 - 329280*k1 6*k2 6*k3 2 - 278040*k1 6*k2 4*k3 4 + 336000*k1 6*k2 2*k3
    6 + 4102*k1 6*k3 8 - 416448*k1 4*k2 10 + 44220*k1 4*k2 8*k3 2 - 278040*k1 4*k2 6*k3 4 + 599760*k1 4*k2 4*k3 6 - 178486*k1 4*k2 2*k3 8 -
    91728*k1 4*k3 10 + 431871*k1 2*k2 12 + 155150*k1 2*k2 10*k3 2 - 171677*k1 2*k2 8*k3 4 + 336000*k1 2*k2 6*k3 6 - 178486*k1 2*k2 4*k3 8 +
    243656*k1 2*k2 2*k3 10 + 71610*k1 2*k3 12 - 108102*k2 14 + 89958*k2 12*k3 2 + 10902*k2 10*k3 4 + 14442*k2 8*k3 6 + 4102*k2 6*k3 8 -
    91728*k2 4*k3 10 + 71610*k2 2*k3 12 - 2744*k3 14)*q 4 + (49200*k1 12 - 239745*k1 10*k2 2 - 37312*k1 10*k3 2 + 18714*k1 8*k2 4 -
    344046*k1 8*k2 2*k3 2 + 101720*k1 8*k3 4 + 288222*k1 6*k2 6 + 299658*k1 6*k2 4*k3 2 + 542527*k1 6*k2 2*k3 4 - 177925*k1 6*k3 6 +
    18714*k1 4*k2 8 + 299658*k1 4*k2 6*k3 2 - 292320*k1 4*k2 4*k3 4 - 776307*k1 4*k2 2*k3 6 + 177884*k1 4*k3 8 - 239745*k1 2*k2 10 -
    344046*k1 2*k2 8*k3 2 + 542527*k1 2*k2 6*k3 4 - 776307*k1 2*k2 4*k3 6 + 45024*k1 2*k2 2*k3 8 - 91553*k1 2*k3 10 + 49200*k2 12 - 37312*k2
    10*k3 2 + 101720*k2 8*k3 4 - 177925*k2 6*k3 6 + 177884*k2 4*k3 8 - 91553*k2 2*k3 10 - 6174*k3 12)*q 6 + (32139*k1 10 + 171783*k1 8*k2 2
    + 174885*k1 8*k3 2 - 181242*k1 6*k2 4 - 729854*k1 6*k2 2*k3 2 - 386667*k1 6*k3 4 - 181242*k1 4*k2 6 + 536466*k1 4*k2 4*k3 2 - 36249*k1
    4*k2 2*k3 4 + 316959*k1 4*k3 6 + 171783*k1 2*k2 8 - 729854*k1 2*k2 6*k3 2 - 36249*k1 2*k2 4*k3 4 + 268968*k1 2*k2 2*k3 6 - 124040*k1
    2*k3 8 + 32139*k2 10 + 174885*k2 8*k3 2 - 386667*k2 6*k3 4 + 316959*k2 4*k3 6 - 124040*k2 2*k3 8 - 3556*k3 10)*q 8)/(32598720*k1 2*k2
    2*q 14)

theorem g2dCL1_inf (k1 k2 k3 : ℝ) : (fun q => g2dCL1 (pw k1) (pw k2) (pw k3) (pw q)) =O[atTop] fun q : ℝ => q ^ (5 : ℤ) := by
  unfold g2dCL1
  exact inf_frac6 _ _ _ _ _ _ _ _ _ (by norm_num)

theorem g2dCL2_inf (k1 k2 k3 : ℝ) : (fun q => g2dCL2 (pw k1) (pw k2) (pw k3) (pw q)) =O[atTop] fun q : ℝ => q ^ (5 : ℤ) := by
  unfold g2dCL2
  exact inf_frac6 _ _ _ _ _ _ _ _ _ (by norm_num)

theorem g2dCL3_inf (k1 k2 k3 : ℝ) : (fun q => g2dCL3 (pw k1) (pw k2) (pw k3) (pw q)) =O[atTop] fun q : ℝ => q ^ (5 : ℤ) := by
  unfold g2dCL3
  exact inf_frac6 _ _ _ _ _ _ _ _ _ (by norm_num)

theorem g2dCW1_inf (k1 k2 k3 : ℝ) : (fun q => g2dCW1 (pw k1) (pw k2) (pw k3) (pw q)) =O[atTop] fun q : ℝ => q ^ (3 : ℤ) := by
  unfold g2dCW1
  exact inf_frac5 _ _ _ _ _ _ _ _ (by norm_num)

theorem g2dCW2_inf (k1 k2 k3 : ℝ) : (fun q => g2dCW2 (pw k1) (pw k2) (pw k3) (pw q)) =O[atTop] fun q : ℝ => q ^ (3 : ℤ) := by
  unfold g2dCW2
  exact inf_frac5 _ _ _ _ _ _ _ _ (by norm_num)

theorem g2dCW3_inf (k1 k2 k3 : ℝ) : (fun q => g2dCW3 (pw k1) (pw k2) (pw k3) (pw q)) =O[atTop] fun q : ℝ => q ^ (3 : ℤ) := by
  unfold g2dCW3
  exact inf_frac5 _ _ _ _ _ _ _ _ (by norm_num)

theorem g2dLowRem_inf (k1 k2 k3 : ℝ) : (fun q => g2dLowRem (pw k1) (pw k2) (pw k3) (pw q)) =O[atTop] fun q : ℝ => q ^ (-6 : ℤ) := by
  unfold g2dLowRem
  exact inf_frac5 _ _ _ _ _ _ _ _ (by norm_num)

set_option maxHeartbeats 2000000 in
theorem g2d_low_identity (k1 k2 k3 q : ℝ) (h1 : k1 ≠ 0) (h2 : k2 ≠ 0) (h3 : k3 ≠ 0) (hq : q ≠ 0) :
    π * (g2dC0 (pw k1) (pw k2) (pw k3) (pw q) + g2dCL1 (pw k1) (pw k2) (pw k3) (pw q) * (4 * artSum 5 (k1 / q)) + g2dCL2 (pw k1) (pw k2) (pw k3) (pw q) * (4 * artSum 5 (k2 / q)) +
      g2dCL3 (pw k1) (pw k2) (pw k3) (pw q) * (4 * artSum 5 (k3 / q)) + g2dCW1 (pw k1) (pw k2) (pw k3) (pw q) * triInf k1 k2 k3 q +
      g2dCW2 (pw k1) (pw k2) (pw k3) (pw q) * triInf k1 k3 k2 q + g2dCW3 (pw k1) (pw k2) (pw k3) (pw q) * triInf k2 k3 k1 q) - g2dLowk k1 k2 k3 q =
    π * g2dLowRem (pw k1) (pw k2) (pw k3) (pw q) := by
  simp only [artSum, Finset.sum_range_succ, Finset.sum_range_zero, triInf]
  push_cast
  simp only [g2dC0, g2dCL1, g2dCL2, g2dCL3, g2dCW1, g2dCW2, g2dCW3, g2dLowk, g2dLowkE, g2dLowRem, pw, pow_one]
  field_simp
  ring

theorem g2d_low (k1 k2 k3 : ℝ) (h : Triangle k1 k2 k3) :
    (fun q => g2dExact k1 k2 k3 q - g2dLowk k1 k2 k3 q) =O[atTop] fun q : ℝ => q ^ (-6 : ℤ) := by
  have step : ∀ (c x : ℝ → ℝ) (m n : ℤ), m + n = -6 → (c =O[atTop] fun q : ℝ => q ^ m) → (x =O[atTop] fun q : ℝ => q ^ n) →
      (fun q => c q * x q) =O[atTop] fun q : ℝ => q ^ (-6 : ℤ) := fun c x m n e hc hx => by
    refine (hc.mul hx).congr' EventuallyEq.rfl ?_
    filter_upwards [eventually_gt_atTop 0] with q hq
    rw [← zpow_add₀ hq.ne', e]
  have l1 := step _ _ 5 (-11) (by norm_num) (g2dCL1_inf k1 k2 k3) (LFunc_inf k1 h.pos1)
  have l2 := step _ _ 5 (-11) (by norm_num) (g2dCL2_inf k1 k2 k3) (LFunc_inf k2 h.pos2)
  have l3 := step _ _ 5 (-11) (by norm_num) (g2dCL3_inf k1 k2 k3) (LFunc_inf k3 h.pos3)
  have w1 := step _ _ 3 (-9) (by norm_num) (g2dCW1_inf k1 k2 k3) (triLog_inf k1 k2 k3 h.pos3)
  have w2 := step _ _ 3 (-9) (by norm_num) (g2dCW2_inf k1 k2 k3) (triLog_inf k1 k3 k2 h.pos2)
  have w3 := step _ _ 3 (-9) (by norm_num) (g2dCW3_inf k1 k2 k3) (triLog_inf k2 k3 k1 h.pos1)
  refine ((((((l1.add l2).add l3).add w1).add w2).add w3).add (g2dLowRem_inf k1 k2 k3)).const_mul_left π |>.congr' ?_ EventuallyEq.rfl
  filter_upwards [eventually_gt_atTop 0, eventually_gt_atTop k1, eventually_gt_atTop k2, eventually_gt_atTop k3] with q hq q1 q2 q3
  rw [g2dExact_form k1 k2 k3 q h hq q1.ne' q2.ne' q3.ne']
  linear_combination -g2d_low_identity k1 k2 k3 q h.pos1.ne' h.pos2.ne' h.pos3.ne' hq.ne'

/-- Remainder of `kernel_gamma2t_lowk` after expanding the exact kernel at large `q` (`src/gamma2t_1loop.c:10-117`). -/
def g2tLowRem (k1 k2 k3 q : ℕ → ℝ) : ℝ :=
  ((-(455*k1 18) + 6790*k1 16*k2 2 + 67235*k1 16*k3 2 - 595*k1 14*k2 4 - 41160*k1 14*k2 2*k3 2 - 55265*k1 14*k3 4 - 5740*k1 12*k2 6 -
    28035*k1 12*k2 4*k3 2 - 10710*k1 12*k2 2*k3 4 - 11515*k1 12*k3 6 - 5740*k1 6*k2 12 + 1960*k1 6*k3 12 - 595*k1 4*k2 14 - 28035*k1 4*k2
    12*k3 2 - 17640*k1 4*k2 2*k3 12 + 31360*k1 4*k3 14 + 6790*k1 2*k2 16 - 41160*k1 2*k2 14*k3 2 - 10710*k1 2*k2 12*k3 4 - 17640*k1 2*k2
    4*k3 12 - 62720*k1 2*k2 2*k3 14 - 29400*k1 2*k3 16 - 455*k2 18 + 67235*k2 16*k3 2 - 55265*k2 14*k3 4 - 11515*k2 12*k3 6 + 1960*k2 6*k3
    12 + 31360*k2 4*k3 14 - 29400*k2 2*k3 16 - 3920*k3 18) + (23040*k1 16 - 85245*k1 14*k2 2 - 149980*k1 14*k3 2 + 75850*k1 12*k2 4 +
    148890*k1 12*k2 2*k3 2 + 101040*k1 12*k3 4 - 7765*k1 10*k2 6 + 8790*k1 10*k2 4*k3 2 + 53395*k1 10*k2 2*k3 4 - 14420*k1 10*k3 6 +
    579264*k1 8*k2 4*k3 4 - 7765*k1 6*k2 10 - 13440*k1 6*k2 6*k3 4 - 530880*k1 6*k2 4*k3 6 + 5215*k1 6*k3 10 + 75850*k1 4*k2 12 + 8790*k1
    4*k2 10*k3 2 + 579264*k1 4*k2 8*k3 4 - 530880*k1 4*k2 6*k3 6 + 475776*k1 4*k2 4*k3 8 - 15575*k1 4*k2 2*k3 10 - 89040*k1 4*k3 12 -
    85245*k1 2*k2 14 + 148890*k1 2*k2 12*k3 2 + 53395*k1 2*k2 10*k3 4 - 15575*k1 2*k2 4*k3 10 + 225120*k1 2*k2 2*k3 12 + 70735*k1 2*k3 14 +
    23040*k2 16 - 149980*k2 14*k3 2 + 101040*k2 12*k3 4 - 14420*k2 10*k3 6 + 5215*k2 6*k3 10 - 89040*k2 4*k3 12 + 70735*k2 2*k3 14 - 2590*k3
    16)*q 2 + (-(36034*k1 14) + 143957*k1 12*k2 2 + 87318*k1 12*k3 2 - 138816*k1 10*k2 4 - 67318*k1 10*k2 2*k3 2 - 68262*k1 10*k3 4 +
    26693*k1 8*k2 6 - 140448*k1 8*k2 4*k3 2 - 956351*k1 8*k2 2*k3 4 + 45778*k1 8*k3 6 + 26693*k1 6*k2 8 + 235200*k1 6*k2 6*k3 2 - 918120*k1
    6*k2 4*k3 4 + 1344000*k1 6*k2 2*k3 6 - 2072*k1 6*k3 8 - 138816*k1 4*k2 10 - 140448*k1 4*k2 8*k3 2 - 918120*k1 4*k2 6*k3 4 + 1234800*k1
    4*k2 4*k3 6 - 676984*k1 4*k2 2*k3 8 + 48888*k1 4*k3 10 + 143957*k1 2*k2 12 - 67318*k1 2*k2 10*k3 2 - 956351*k1 2*k2 8*k3 4 + 1344000*k1
    2*k2 6*k3 6 - 676984*k1 2*k2 4*k3 8 - 51016*k1 2*k2 2*k3 10 - 50820*k1 2*k3 12 - 36034*k2 14 + 87318*k2 12*k3 2 - 68262*k2 10*k3 4 +
    45778*k2 8*k3 6 - 2072*k2 6*k3 8 + 48888*k2 4*k3 10 - 50820*k2 2*k3 12 - 6356*k3 14)*q 4 + (16400*k1 12 - 79915*k1 10*k2 2 + 18700*k1
    10*k3 2 + 6238*k1 8*k2 4 + 58238*k1 8*k2 2*k3 2 + 428000*k1 8*k3 4 + 96074*k1 6*k2 6 - 81702*k1 6*k2 4*k3 2 + 882877*k1 6*k2 2*k3 4 -
    704891*k1 6*k3 6 + 6238*k1 4*k2 8 - 81702*k1 4*k2 6*k3 2 + 1159200*k1 4*k2 4*k3 4 - 1923201*k1 4*k2 2*k3 6 + 353948*k1 4*k3 8 - 79915*k1
    2*k2 10 + 58238*k1 2*k2 8*k3 2 + 882877*k1 2*k2 6*k3 4 - 1923201*k1 2*k2 4*k3 6 + 775152*k1 2*k2 2*k3 8 - 30107*k1 2*k3 10 + 16400*k2 12
    + 18700*k2 10*k3 2 + 428000*k2 8*k3 4 - 704891*k2 6*k3 6 + 353948*k2 4*k3 8 - 30107*k2 2*k3 10 - 210*k3 12)*q 6 + (10713*k1 10 +
    57261*k1 8*k2 2 + 208951*k1 8*k3 2 - 60414*k1 6*k2 4 - 239530*k1 6*k2 2*k3 2 - 554457*k1 6*k3 4 - 60414*k1 4*k2 6 - 190074*k1 4*k2 4*k3
    2 - 451731*k1 4*k2 2*k3 4 + 811061*k1 4*k3 6 + 57261*k1 2*k2 8 - 239530*k1 2*k2 6*k3 2 - 451731*k1 2*k2 4*k3 4 + 848568*k1 2*k2 2*k3 6 -
    498008*k1 2*k3 8 + 10713*k2 10 + 208951*k2 8*k3 2 - 554457*k2 6*k3 4 + 811061*k2 4*k3 6 - 498008*k2 2*k3 8 - 22540*k3 10)*q
    8)/(32598720*k1 2*k2 2*q 14)

theorem g2tCL1_inf (k1 k2 k3 : ℝ) : (fun q => g2tCL1 (pw k1) (pw k2) (pw k3) (pw q)) =O[atTop] fun q : ℝ => q ^ (5 : ℤ) := by
  unfold g2tCL1
  exact inf_frac6 _ _ _ _ _ _ _ _ _ (by norm_num)

theorem g2tCL2_inf (k1 k2 k3 : ℝ) : (fun q => g2tCL2 (pw k1) (pw k2) (pw k3) (pw q)) =O[atTop] fun q : ℝ => q ^ (5 : ℤ) := by
  unfold g2tCL2
  exact inf_frac6 _ _ _ _ _ _ _ _ _ (by norm_num)

theorem g2tCL3_inf (k1 k2 k3 : ℝ) : (fun q => g2tCL3 (pw k1) (pw k2) (pw k3) (pw q)) =O[atTop] fun q : ℝ => q ^ (5 : ℤ) := by
  unfold g2tCL3
  exact inf_frac6 _ _ _ _ _ _ _ _ _ (by norm_num)

theorem g2tCW1_inf (k1 k2 k3 : ℝ) : (fun q => g2tCW1 (pw k1) (pw k2) (pw k3) (pw q)) =O[atTop] fun q : ℝ => q ^ (3 : ℤ) := by
  unfold g2tCW1
  exact inf_frac5 _ _ _ _ _ _ _ _ (by norm_num)

theorem g2tCW2_inf (k1 k2 k3 : ℝ) : (fun q => g2tCW2 (pw k1) (pw k2) (pw k3) (pw q)) =O[atTop] fun q : ℝ => q ^ (3 : ℤ) := by
  unfold g2tCW2
  exact inf_frac5 _ _ _ _ _ _ _ _ (by norm_num)

theorem g2tCW3_inf (k1 k2 k3 : ℝ) : (fun q => g2tCW3 (pw k1) (pw k2) (pw k3) (pw q)) =O[atTop] fun q : ℝ => q ^ (3 : ℤ) := by
  unfold g2tCW3
  exact inf_frac5 _ _ _ _ _ _ _ _ (by norm_num)

theorem g2tLowRem_inf (k1 k2 k3 : ℝ) : (fun q => g2tLowRem (pw k1) (pw k2) (pw k3) (pw q)) =O[atTop] fun q : ℝ => q ^ (-6 : ℤ) := by
  unfold g2tLowRem
  exact inf_frac5 _ _ _ _ _ _ _ _ (by norm_num)

set_option maxHeartbeats 2000000 in
theorem g2t_low_identity (k1 k2 k3 q : ℝ) (h1 : k1 ≠ 0) (h2 : k2 ≠ 0) (h3 : k3 ≠ 0) (hq : q ≠ 0) :
    π * (g2tC0 (pw k1) (pw k2) (pw k3) (pw q) + g2tCL1 (pw k1) (pw k2) (pw k3) (pw q) * (4 * artSum 5 (k1 / q)) + g2tCL2 (pw k1) (pw k2) (pw k3) (pw q) * (4 * artSum 5 (k2 / q)) +
      g2tCL3 (pw k1) (pw k2) (pw k3) (pw q) * (4 * artSum 5 (k3 / q)) + g2tCW1 (pw k1) (pw k2) (pw k3) (pw q) * triInf k1 k2 k3 q +
      g2tCW2 (pw k1) (pw k2) (pw k3) (pw q) * triInf k1 k3 k2 q + g2tCW3 (pw k1) (pw k2) (pw k3) (pw q) * triInf k2 k3 k1 q) - g2tLowk k1 k2 k3 q =
    π * g2tLowRem (pw k1) (pw k2) (pw k3) (pw q) := by
  simp only [artSum, Finset.sum_range_succ, Finset.sum_range_zero, triInf]
  push_cast
  simp only [g2tC0, g2tCL1, g2tCL2, g2tCL3, g2tCW1, g2tCW2, g2tCW3, g2tLowk, g2tLowkE, g2tLowRem, pw, pow_one]
  field_simp
  ring

theorem g2t_low (k1 k2 k3 : ℝ) (h : Triangle k1 k2 k3) :
    (fun q => g2tExact k1 k2 k3 q - g2tLowk k1 k2 k3 q) =O[atTop] fun q : ℝ => q ^ (-6 : ℤ) := by
  have step : ∀ (c x : ℝ → ℝ) (m n : ℤ), m + n = -6 → (c =O[atTop] fun q : ℝ => q ^ m) → (x =O[atTop] fun q : ℝ => q ^ n) →
      (fun q => c q * x q) =O[atTop] fun q : ℝ => q ^ (-6 : ℤ) := fun c x m n e hc hx => by
    refine (hc.mul hx).congr' EventuallyEq.rfl ?_
    filter_upwards [eventually_gt_atTop 0] with q hq
    rw [← zpow_add₀ hq.ne', e]
  have l1 := step _ _ 5 (-11) (by norm_num) (g2tCL1_inf k1 k2 k3) (LFunc_inf k1 h.pos1)
  have l2 := step _ _ 5 (-11) (by norm_num) (g2tCL2_inf k1 k2 k3) (LFunc_inf k2 h.pos2)
  have l3 := step _ _ 5 (-11) (by norm_num) (g2tCL3_inf k1 k2 k3) (LFunc_inf k3 h.pos3)
  have w1 := step _ _ 3 (-9) (by norm_num) (g2tCW1_inf k1 k2 k3) (triLog_inf k1 k2 k3 h.pos3)
  have w2 := step _ _ 3 (-9) (by norm_num) (g2tCW2_inf k1 k2 k3) (triLog_inf k1 k3 k2 h.pos2)
  have w3 := step _ _ 3 (-9) (by norm_num) (g2tCW3_inf k1 k2 k3) (triLog_inf k2 k3 k1 h.pos1)
  refine ((((((l1.add l2).add l3).add w1).add w2).add w3).add (g2tLowRem_inf k1 k2 k3)).const_mul_left π |>.congr' ?_ EventuallyEq.rfl
  filter_upwards [eventually_gt_atTop 0, eventually_gt_atTop k1, eventually_gt_atTop k2, eventually_gt_atTop k3] with q hq q1 q2 q3
  rw [g2tExact_form k1 k2 k3 q h hq q1.ne' q2.ne' q3.ne']
  linear_combination -g2t_low_identity k1 k2 k3 q h.pos1.ne' h.pos2.ne' h.pos3.ne' hq.ne'

end

end Verif
