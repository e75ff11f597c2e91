import Verif.Proofs.Gamma2Form

/-!
# The regularised second-order loop kernels

Polynomials found by `tools/g2limits` and checked here.
-/

set_option linter.unusedSimpArgs false
set_option linter.unusedVariables false

namespace Verif

noncomputable section

open Real

/-- Numerator of the part of `kernel_gamma2d_exact` without logarithms. -/
def g2dRegN0 (k1 k2 k3 q : ℕ → ℝ) : ℝ :=
  (585*k1 14*k2 6*k3 4 - 1350*k1 12*k2 8*k3 4 - 12075*k1 12*k2 6*k3 6 + 1530*k1 10*k2 10*k3 4 + 22515*k1 10*k2 8*k3 6 + 5655*k1 10*k2 6*k3
    8 - 1350*k1 8*k2 12*k3 4 + 22515*k1 8*k2 10*k3 6 + 14100*k1 8*k2 8*k3 8 + 5415*k1 8*k2 6*k3 10 + 585*k1 6*k2 14*k3 4 - 12075*k1 6*k2
    12*k3 6 + 5655*k1 6*k2 10*k3 8 + 5415*k1 6*k2 8*k3 10 + 420*k1 6*k2 6*k3 12) + (-(27330*k1 12*k2 6*k3 4) + 19770*k1 10*k2 8*k3 4 +
    222610*k1 10*k2 6*k3 6 + 19770*k1 8*k2 10*k3 4 - 455660*k1 8*k2 8*k3 6 - 120370*k1 8*k2 6*k3 8 - 27330*k1 6*k2 12*k3 4 + 222610*k1 6*k2
    10*k3 6 - 120370*k1 6*k2 8*k3 8 - 68910*k1 6*k2 6*k3 10)*q 2 + (3150*k1 12*k2 6*k3 2 + 58425*k1 12*k2 4*k3 4 - 3150*k1 10*k2 8*k3 2 -
    419226*k1 10*k2 6*k3 4 - 106440*k1 10*k2 4*k3 6 - 3150*k1 8*k2 10*k3 2 + 740922*k1 8*k2 8*k3 4 + 250234*k1 8*k2 6*k3 6 + 38925*k1 8*k2
    4*k3 8 + 3150*k1 6*k2 12*k3 2 - 419226*k1 6*k2 10*k3 4 + 250234*k1 6*k2 8*k3 6 + 9532*k1 6*k2 6*k3 8 + 9090*k1 6*k2 4*k3 10 + 58425*k1
    4*k2 12*k3 4 - 106440*k1 4*k2 10*k3 6 + 38925*k1 4*k2 8*k3 8 + 9090*k1 4*k2 6*k3 10)*q 4 + (-(2835*k1 12*k2 6) - 29235*k1 12*k2 2*k3 4 +
    2835*k1 10*k2 8 + 54180*k1 10*k2 6*k3 2 + 130410*k1 10*k2 4*k3 4 + 58770*k1 10*k2 2*k3 6 + 2835*k1 8*k2 10 - 100800*k1 8*k2 8*k3 2 -
    148950*k1 8*k2 6*k3 4 - 98490*k1 8*k2 4*k3 6 - 29835*k1 8*k2 2*k3 8 - 2835*k1 6*k2 12 + 54180*k1 6*k2 10*k3 2 - 148950*k1 6*k2 8*k3 4 -
    57210*k1 6*k2 6*k3 6 + 6660*k1 6*k2 4*k3 8 + 300*k1 6*k2 2*k3 10 + 130410*k1 4*k2 10*k3 4 - 98490*k1 4*k2 8*k3 6 + 6660*k1 4*k2 6*k3 8 -
    29235*k1 2*k2 12*k3 4 + 58770*k1 2*k2 10*k3 6 - 29835*k1 2*k2 8*k3 8 + 300*k1 2*k2 6*k3 10)*q 6 + (2475*k1 12*k3 4 - 11340*k1 10*k2 6 -
    12825*k1 10*k2 2*k3 4 - 7425*k1 10*k3 6 + 22680*k1 8*k2 8 + 7560*k1 8*k2 6*k3 2 + 7065*k1 8*k2 4*k3 4 + 19710*k1 8*k2 2*k3 6 + 7425*k1
    8*k3 8 - 11340*k1 6*k2 10 + 7560*k1 6*k2 8*k3 2 + 10350*k1 6*k2 6*k3 4 + 6075*k1 6*k2 4*k3 6 - 6885*k1 6*k2 2*k3 8 - 2475*k1 6*k3 10 +
    7065*k1 4*k2 8*k3 4 + 6075*k1 4*k2 6*k3 6 - 12825*k1 2*k2 10*k3 4 + 19710*k1 2*k2 8*k3 6 - 6885*k1 2*k2 6*k3 8 + 2475*k2 12*k3 4 -
    7425*k2 10*k3 6 + 7425*k2 8*k3 8 - 2475*k2 6*k3 10)*q 8

/-- Rational part of the beta function of `k1` in `kernel_gamma2d_reg3rd`, times `(k1+q)^4` (numerator). -/
def g2dRegN1 (k1 k2 k3 q : ℕ → ℝ) : ℝ :=
  (-(117*k1 18) + 1746*k1 16*k2 2 + 2373*k1 16*k3 2 - 153*k1 14*k2 4 - 6360*k1 14*k2 2*k3 2 - 1803*k1 14*k3 4 - 1476*k1 12*k2 6 + 1899*k1
    12*k2 4*k3 2 - 1170*k1 12*k2 2*k3 4 - 453*k1 12*k3 6) + (-(468*k1 17) + 6984*k1 15*k2 2 + 9492*k1 15*k3 2 - 612*k1 13*k2 4 - 25440*k1
    13*k2 2*k3 2 - 7212*k1 13*k3 4 - 5904*k1 11*k2 6 + 7596*k1 11*k2 4*k3 2 - 4680*k1 11*k2 2*k3 4 - 1812*k1 11*k3 6)*q 1 + (5334*k1 16 -
    13107*k1 14*k2 2 + 4922*k1 14*k3 2 + 18732*k1 12*k2 4 - 29834*k1 12*k2 2*k3 2 - 8350*k1 12*k3 4 - 9447*k1 10*k2 6 + 13260*k1 10*k2 4*k3
    2 - 6243*k1 10*k2 2*k3 4 - 2770*k1 10*k3 6)*q 2 + (25548*k1 15 - 115284*k1 13*k2 2 - 65740*k1 13*k3 2 + 80436*k1 11*k2 4 + 109624*k1
    11*k2 2*k3 2 + 31508*k1 11*k3 4 + 15348*k1 9*k2 6 - 15324*k1 9*k2 4*k3 2 + 17148*k1 9*k2 2*k3 4 + 5228*k1 9*k3 6)*q 3 + (19737*k1 14 -
    60165*k1 12*k2 2 - 9609*k1 12*k3 2 + 61575*k1 10*k2 4 - 24286*k1 10*k2 2*k3 2 - 9177*k1 10*k3 4 - 14595*k1 8*k2 6 + 20751*k1 8*k2 4*k3 2
    - 6661*k1 8*k2 2*k3 4 - 4695*k1 8*k3 6)*q 4 + (-(129768*k1 13) + 480288*k1 11*k2 2 + 122920*k1 11*k3 2 - 449880*k1 9*k2 4 + 69520*k1
    9*k2 2*k3 2 + 6664*k1 9*k3 4 + 71136*k1 7*k2 6 - 123432*k1 7*k2 4*k3 2 + 31184*k1 7*k2 2*k3 4 + 16312*k1 7*k3 6)*q 5 + (2580*k1 12 +
    5442*k1 10*k2 2 - 7604*k1 10*k3 2 - 8040*k1 8*k2 4 + 36732*k1 8*k2 2*k3 2 + 1420*k1 8*k3 4 + 6570*k1 6*k2 6 - 15024*k1 6*k2 4*k3 2 +
    7394*k1 6*k2 2*k3 4 - 140*k1 6*k3 6)*q 6 + (115320*k1 11 - 496248*k1 9*k2 2 - 88632*k1 9*k3 2 + 494904*k1 7*k2 4 - 269920*k1 7*k2 2*k3 2
    - 14616*k1 7*k3 4 - 107928*k1 5*k2 6 + 199272*k1 5*k2 4*k3 2 - 75816*k1 5*k2 2*k3 4 - 15528*k1 5*k3 6)*q 7 + (-(18963*k1 10) + 67896*k1
    8*k2 2 + 3843*k1 8*k3 2 - 63987*k1 6*k2 4 + 37532*k1 6*k2 2*k3 2 + 9603*k1 6*k3 4 + 16566*k1 4*k2 6 - 28743*k1 4*k2 4*k3 2 + 7524*k1
    4*k2 2*k3 4 + 4653*k1 4*k3 6)*q 8 + (-(8004*k1 9) + 113784*k1 7*k2 2 + 36036*k1 7*k3 2 - 135108*k1 5*k2 4 + 126096*k1 5*k2 2*k3 2 -
    21852*k1 5*k3 4 + 29328*k1 3*k2 6 - 64836*k1 3*k2 4*k3 2 + 41688*k1 3*k2 2*k3 4 - 6180*k1 3*k3 6)*q 9 + (-(7914*k1 8) + 15729*k1 6*k2 2
    - 1926*k1 6*k3 2 - 10692*k1 4*k2 4 - 3954*k1 4*k2 2*k3 2 + 6930*k1 4*k3 4 + 2877*k1 2*k2 6 - 2844*k1 2*k2 4*k3 2 - 2943*k1 2*k2 2*k3 4 +
    2910*k1 2*k3 6)*q 10 + (-(2628*k1 7) - 5652*k1 5*k2 2 - 4860*k1 5*k3 2 + 10260*k1 3*k2 4 - 15768*k1 3*k2 2*k3 2 + 5508*k1 3*k3 4 -
    1980*k1 1*k2 6 + 5940*k1 1*k2 4*k3 2 - 5940*k1 1*k2 2*k3 4 + 1980*k1 1*k3 6)*q 11 + (-(657*k1 6) - 1413*k1 4*k2 2 - 1215*k1 4*k3 2 +
    2565*k1 2*k2 4 - 3942*k1 2*k2 2*k3 2 + 1377*k1 2*k3 4 - 495*k2 6 + 1485*k2 4*k3 2 - 1485*k2 2*k3 4 + 495*k3 6)*q 12

set_option maxHeartbeats 2000000 in
theorem g2dRegN1_eq (k1 k2 k3 q : ℝ) (h1 : 0 < k1) (h2 : 0 < k2) (h3 : 0 < k3) (hq : 0 < q) :
    g2dCL1 (pw k1) (pw k2) (pw k3) (pw q) * (4 * k1 * q / (k1 + q) ^ 2 + (4 * k1 * q / (k1 + q) ^ 2) ^ 2 / 2 + (4 * k1 * q / (k1 + q) ^ 2) ^ 3 / 3) =
    g2dRegN1 (pw k1) (pw k2) (pw k3) (pw q) / (310464 * k1 ^ 8 * k2 ^ 2 * q ^ 4) / (k1 + q) ^ 4 := by
  simp only [g2dCL1, g2dRegN1, pw, pow_one]
  field_simp
  ring

/-- Rational part of the beta function of `k2` in `kernel_gamma2d_reg3rd`, times `(k2+q)^4` (numerator). -/
def g2dRegN2 (k1 k2 k3 q : ℕ → ℝ) : ℝ :=
  (-(1476*k1 6*k2 12) - 153*k1 4*k2 14 + 1899*k1 4*k2 12*k3 2 + 1746*k1 2*k2 16 - 6360*k1 2*k2 14*k3 2 - 1170*k1 2*k2 12*k3 4 - 117*k2 18
    + 2373*k2 16*k3 2 - 1803*k2 14*k3 4 - 453*k2 12*k3 6) + (-(5904*k1 6*k2 11) - 612*k1 4*k2 13 + 7596*k1 4*k2 11*k3 2 + 6984*k1 2*k2 15 -
    25440*k1 2*k2 13*k3 2 - 4680*k1 2*k2 11*k3 4 - 468*k2 17 + 9492*k2 15*k3 2 - 7212*k2 13*k3 4 - 1812*k2 11*k3 6)*q 1 + (-(9447*k1 6*k2
    10) + 18732*k1 4*k2 12 + 13260*k1 4*k2 10*k3 2 - 13107*k1 2*k2 14 - 29834*k1 2*k2 12*k3 2 - 6243*k1 2*k2 10*k3 4 + 5334*k2 16 + 4922*k2
    14*k3 2 - 8350*k2 12*k3 4 - 2770*k2 10*k3 6)*q 2 + (15348*k1 6*k2 9 + 80436*k1 4*k2 11 - 15324*k1 4*k2 9*k3 2 - 115284*k1 2*k2 13 +
    109624*k1 2*k2 11*k3 2 + 17148*k1 2*k2 9*k3 4 + 25548*k2 15 - 65740*k2 13*k3 2 + 31508*k2 11*k3 4 + 5228*k2 9*k3 6)*q 3 + (-(14595*k1
    6*k2 8) + 61575*k1 4*k2 10 + 20751*k1 4*k2 8*k3 2 - 60165*k1 2*k2 12 - 24286*k1 2*k2 10*k3 2 - 6661*k1 2*k2 8*k3 4 + 19737*k2 14 -
    9609*k2 12*k3 2 - 9177*k2 10*k3 4 - 4695*k2 8*k3 6)*q 4 + (71136*k1 6*k2 7 - 449880*k1 4*k2 9 - 123432*k1 4*k2 7*k3 2 + 480288*k1 2*k2
    11 + 69520*k1 2*k2 9*k3 2 + 31184*k1 2*k2 7*k3 4 - 129768*k2 13 + 122920*k2 11*k3 2 + 6664*k2 9*k3 4 + 16312*k2 7*k3 6)*q 5 + (6570*k1
    6*k2 6 - 8040*k1 4*k2 8 - 15024*k1 4*k2 6*k3 2 + 5442*k1 2*k2 10 + 36732*k1 2*k2 8*k3 2 + 7394*k1 2*k2 6*k3 4 + 2580*k2 12 - 7604*k2
    10*k3 2 + 1420*k2 8*k3 4 - 140*k2 6*k3 6)*q 6 + (-(107928*k1 6*k2 5) + 494904*k1 4*k2 7 + 199272*k1 4*k2 5*k3 2 - 496248*k1 2*k2 9 -
    269920*k1 2*k2 7*k3 2 - 75816*k1 2*k2 5*k3 4 + 115320*k2 11 - 88632*k2 9*k3 2 - 14616*k2 7*k3 4 - 15528*k2 5*k3 6)*q 7 + (16566*k1 6*k2
    4 - 63987*k1 4*k2 6 - 28743*k1 4*k2 4*k3 2 + 67896*k1 2*k2 8 + 37532*k1 2*k2 6*k3 2 + 7524*k1 2*k2 4*k3 4 - 18963*k2 10 + 3843*k2 8*k3 2
    + 9603*k2 6*k3 4 + 4653*k2 4*k3 6)*q 8 + (29328*k1 6*k2 3 - 135108*k1 4*k2 5 - 64836*k1 4*k2 3*k3 2 + 113784*k1 2*k2 7 + 126096*k1 2*k2
    5*k3 2 + 41688*k1 2*k2 3*k3 4 - 8004*k2 9 + 36036*k2 7*k3 2 - 21852*k2 5*k3 4 - 6180*k2 3*k3 6)*q 9 + (2877*k1 6*k2 2 - 10692*k1 4*k2 4
    - 2844*k1 4*k2 2*k3 2 + 15729*k1 2*k2 6 - 3954*k1 2*k2 4*k3 2 - 2943*k1 2*k2 2*k3 4 - 7914*k2 8 - 1926*k2 6*k3 2 + 6930*k2 4*k3 4 +
    2910*k2 2*k3 6)*q 10 + (-(1980*k1 6*k2 1) + 10260*k1 4*k2 3 + 5940*k1 4*k2 1*k3 2 - 5652*k1 2*k2 5 - 15768*k1 2*k2 3*k3 2 - 5940*k1 2*k2
    1*k3 4 - 2628*k2 7 - 4860*k2 5*k3 2 + 5508*k2 3*k3 4 + 1980*k2 1*k3 6)*q 11 + (-(495*k1 6) + 2565*k1 4*k2 2 + 1485*k1 4*k3 2 - 1413*k1
    2*k2 4 - 3942*k1 2*k2 2*k3 2 - 1485*k1 2*k3 4 - 657*k2 6 - 1215*k2 4*k3 2 + 1377*k2 2*k3 4 + 495*k3 6)*q 12

set_option maxHeartbeats 2000000 in
theorem g2dRegN2_eq (k1 k2 k3 q : ℝ) (h1 : 0 < k1) (h2 : 0 < k2) (h3 : 0 < k3) (hq : 0 < q) :
    g2dCL2 (pw k1) (pw k2) (pw k3) (pw q) * (4 * k2 * q / (k2 + q) ^ 2 + (4 * k2 * q / (k2 + q) ^ 2) ^ 2 / 2 + (4 * k2 * q / (k2 + q) ^ 2) ^ 3 / 3) =
    g2dRegN2 (pw k1) (pw k2) (pw k3) (pw q) / (310464 * k1 ^ 2 * k2 ^ 8 * q ^ 4) / (k2 + q) ^ 4 := by
  simp only [g2dCL2, g2dRegN2, pw, pow_one]
  field_simp
  ring

/-- Rational part of the beta function of `k3` in `kernel_gamma2d_reg3rd`, times `(k3+q)^5` (numerator). -/
def g2dRegN3 (k1 k2 k3 q : ℕ → ℝ) : ℝ :=
  (6*k1 6*k3 11 - 54*k1 4*k2 2*k3 11 + 96*k1 4*k3 13 - 54*k1 2*k2 4*k3 11 - 192*k1 2*k2 2*k3 13 - 90*k1 2*k3 15 + 6*k2 6*k3 11 + 96*k2
    4*k3 13 - 90*k2 2*k3 15 - 12*k3 17) + (30*k1 6*k3 10 - 270*k1 4*k2 2*k3 10 + 480*k1 4*k3 12 - 270*k1 2*k2 4*k3 10 - 960*k1 2*k2 2*k3 12
    - 450*k1 2*k3 14 + 30*k2 6*k3 10 + 480*k2 4*k3 12 - 450*k2 2*k3 14 - 60*k3 16)*q 1 + (95*k1 6*k3 9 - 759*k1 4*k2 2*k3 9 + 992*k1 4*k3 11
    - 759*k1 2*k2 4*k3 9 - 1840*k1 2*k2 2*k3 11 - 969*k1 2*k3 13 + 95*k2 6*k3 9 + 992*k2 4*k3 11 - 969*k2 2*k3 13 - 166*k3 15)*q 2 + (139*k1
    6*k3 8 - 771*k1 4*k2 2*k3 8 - 416*k1 4*k3 10 - 771*k1 2*k2 4*k3 8 + 1552*k1 2*k2 2*k3 10 + 195*k1 2*k3 12 + 139*k2 6*k3 8 - 416*k2 4*k3
    10 + 195*k2 2*k3 12 - 158*k3 14)*q 3 + (370*k1 6*k3 7 - 2146*k1 4*k2 2*k3 7 - 784*k1 4*k3 9 - 2146*k1 2*k2 4*k3 7 + 3608*k1 2*k2 2*k3 9
    + 206*k1 2*k3 11 + 370*k2 6*k3 7 - 784*k2 4*k3 9 + 206*k2 2*k3 11 - 456*k3 13)*q 4 + (-(190*k1 6*k3 6) + 2254*k1 4*k2 2*k3 6 - 6992*k1
    4*k3 8 + 2254*k1 2*k2 4*k3 6 + 16120*k1 2*k2 2*k3 8 + 6094*k1 2*k3 10 - 190*k2 6*k3 6 - 6992*k2 4*k3 8 + 6094*k2 2*k3 10 + 456*k3 12)*q
    5 + (60*k1 6*k3 5 + 1020*k1 4*k2 2*k3 5 - 10348*k1 4*k3 7 + 1020*k1 2*k2 4*k3 5 + 26688*k1 2*k2 2*k3 7 + 8384*k1 2*k3 9 + 60*k2 6*k3 5 -
    10348*k2 4*k3 7 + 8384*k2 2*k3 9 + 128*k3 11)*q 6 + (-(780*k1 6*k3 4) + 996*k1 4*k2 2*k3 4 + 17764*k1 4*k3 6 + 996*k1 2*k2 4*k3 4 -
    41088*k1 2*k2 2*k3 6 - 14936*k1 2*k3 8 - 780*k2 6*k3 4 + 17764*k2 4*k3 6 - 14936*k2 2*k3 8 + 16*k3 10)*q 7 + (-(936*k1 6*k3 3) + 936*k1
    4*k2 2*k3 3 + 18108*k1 4*k3 5 + 936*k1 2*k2 4*k3 3 - 37680*k1 2*k2 2*k3 5 - 15980*k1 2*k3 7 - 936*k2 6*k3 3 + 18108*k2 4*k3 5 - 15980*k2
    2*k3 7 - 112*k3 9)*q 8 + (720*k1 6*k3 2 - 720*k1 4*k2 2*k3 2 - 12852*k1 4*k3 4 - 720*k1 2*k2 4*k3 2 + 22992*k1 2*k2 2*k3 4 + 11516*k1
    2*k3 6 + 720*k2 6*k3 2 - 12852*k2 4*k3 4 + 11516*k2 2*k3 6 + 832*k3 8)*q 9 + (405*k1 6*k3 1 - 405*k1 4*k2 2*k3 1 - 9684*k1 4*k3 3 -
    405*k1 2*k2 4*k3 1 + 18288*k1 2*k2 2*k3 3 + 8121*k1 2*k3 5 + 405*k2 6*k3 1 - 9684*k2 4*k3 3 + 8121*k2 2*k3 5 + 1158*k3 7)*q 10 + (81*k1
    6 - 81*k1 4*k2 2 + 1692*k1 4*k3 2 - 81*k1 2*k2 4 - 3600*k1 2*k2 2*k3 2 - 795*k1 2*k3 4 + 81*k2 6 + 1692*k2 4*k3 2 - 795*k2 2*k3 4 -
    978*k3 6)*q 11 + (1620*k1 4*k3 1 - 3240*k1 2*k2 2*k3 1 - 1080*k1 2*k3 3 + 1620*k2 4*k3 1 - 1080*k2 2*k3 3 - 540*k3 5)*q 12 + (324*k1 4 -
    648*k1 2*k2 2 - 216*k1 2*k3 2 + 324*k2 4 - 216*k2 2*k3 2 - 108*k3 4)*q 13

set_option maxHeartbeats 2000000 in
theorem g2dRegN3_eq (k1 k2 k3 q : ℝ) (h1 : 0 < k1) (h2 : 0 < k2) (h3 : 0 < k3) (hq : 0 < q) :
    g2dCL3 (pw k1) (pw k2) (pw k3) (pw q) * (4 * k3 * q / (k3 + q) ^ 2 + (4 * k3 * q / (k3 + q) ^ 2) ^ 2 / 2 + (4 * k3 * q / (k3 + q) ^ 2) ^ 3 / 3) =
    g2dRegN3 (pw k1) (pw k2) (pw k3) (pw q) / (44352 * k1 ^ 2 * k2 ^ 2 * k3 ^ 4 * q ^ 4) / (k3 + q) ^ 5 := by
  simp only [g2dCL3, g2dRegN3, pw, pow_one]
  field_simp
  ring

set_option maxHeartbeats 20000000 in
set_option maxRecDepth 4000 in
theorem g2dReg_poly (k1 k2 k3 q : ℝ) :
    8 * k1 ^ 3 * k2 ^ 3 * k3 ^ 3 * (g2dPoly0 (pw k1) (pw k2) (pw k3) (pw q) + g2dPoly1 (pw k1) (pw k2) (pw k3) (pw q) + g2dPoly2 (pw k1) (pw k2) (pw k3) (pw q) + g2dPoly3 (pw k1) (pw k2) (pw k3) (pw q) + g2dPoly4 (pw k1) (pw k2) (pw k3) (pw q) + g2dPoly5 (pw k1) (pw k2) (pw k3) (pw q) + g2dPoly6 (pw k1) (pw k2) (pw k3) (pw q) + g2dPoly7 (pw k1) (pw k2) (pw k3) (pw q) + g2dPoly8 (pw k1) (pw k2) (pw k3) (pw q) + g2dPoly9 (pw k1) (pw k2) (pw k3) (pw q) + g2dPoly10 (pw k1) (pw k2) (pw k3) (pw q) + g2dPoly11 (pw k1) (pw k2) (pw k3) (pw q) + g2dPoly12 (pw k1) (pw k2) (pw k3) (pw q)) = π * ((k3 + q) ^ 5 * ((k2 + q) ^ 4 * ((k1 + q) ^ 4 * g2dRegN0 (pw k1) (pw k2) (pw k3) (pw q) + 5 * k2 ^ 6 * k3 ^ 4 * g2dRegN1 (pw k1) (pw k2) (pw k3) (pw q)) +
      (k1 + q) ^ 4 * (5 * k1 ^ 6 * k3 ^ 4 * g2dRegN2 (pw k1) (pw k2) (pw k3) (pw q))) + (k1 + q) ^ 4 * ((k2 + q) ^ 4 * (35 * k1 ^ 6 * k2 ^ 6 * g2dRegN3 (pw k1) (pw k2) (pw k3) (pw q)))) := by
  simp only [g2dPoly0, g2dPoly1, g2dPoly2, g2dPoly3, g2dPoly4, g2dPoly5, g2dPoly6, g2dPoly7, g2dPoly8, g2dPoly9, g2dPoly10, g2dPoly11, g2dPoly12, g2dRegN0, g2dRegN1, g2dRegN2, g2dRegN3, pw, pow_one]
  ring

/-- Numerator of the part of `kernel_gamma2t_exact` without logarithms. -/
def g2tRegN0 (k1 k2 k3 q : ℕ → ℝ) : ℝ :=
  (195*k1 14*k2 6*k3 4 - 450*k1 12*k2 8*k3 4 - 29655*k1 12*k2 6*k3 6 + 510*k1 10*k2 10*k3 4 + 30495*k1 10*k2 8*k3 6 + 10245*k1 10*k2 6*k3
    8 - 450*k1 8*k2 12*k3 4 + 30495*k1 8*k2 10*k3 6 + 18780*k1 8*k2 8*k3 8 + 17535*k1 8*k2 6*k3 10 + 195*k1 6*k2 14*k3 4 - 29655*k1 6*k2
    12*k3 6 + 10245*k1 6*k2 10*k3 8 + 17535*k1 6*k2 8*k3 10 + 1680*k1 6*k2 6*k3 12) + (-(6030*k1 12*k2 6*k3 4) + 3510*k1 10*k2 8*k3 4 +
    245070*k1 10*k2 6*k3 6 + 3510*k1 8*k2 10*k3 4 - 505060*k1 8*k2 8*k3 6 - 81190*k1 8*k2 6*k3 8 - 6030*k1 6*k2 12*k3 4 + 245070*k1 6*k2
    10*k3 6 - 81190*k1 6*k2 8*k3 8 - 133850*k1 6*k2 6*k3 10)*q 2 + (-(1260*k1 12*k2 6*k3 2) + 19475*k1 12*k2 4*k3 4 + 1260*k1 10*k2 8*k3 2 -
    93542*k1 10*k2 6*k3 4 - 1380*k1 10*k2 4*k3 6 + 1260*k1 8*k2 10*k3 2 + 160734*k1 8*k2 8*k3 4 - 3892*k1 8*k2 6*k3 6 - 50385*k1 8*k2 4*k3 8
    - 1260*k1 6*k2 12*k3 2 - 93542*k1 6*k2 10*k3 4 - 3892*k1 6*k2 8*k3 6 - 92816*k1 6*k2 6*k3 8 + 32290*k1 6*k2 4*k3 10 + 19475*k1 4*k2
    12*k3 4 - 1380*k1 4*k2 10*k3 6 - 50385*k1 4*k2 8*k3 8 + 32290*k1 4*k2 6*k3 10)*q 4 + (-(945*k1 12*k2 6) - 9745*k1 12*k2 2*k3 4 + 945*k1
    10*k2 8 + 8820*k1 10*k2 6*k3 2 + 43470*k1 10*k2 4*k3 4 + 7050*k1 10*k2 2*k3 6 + 945*k1 8*k2 10 - 15120*k1 8*k2 8*k3 2 - 43490*k1 8*k2
    6*k3 4 - 22710*k1 8*k2 4*k3 6 + 15135*k1 8*k2 2*k3 8 - 945*k1 6*k2 12 + 8820*k1 6*k2 10*k3 2 - 43490*k1 6*k2 8*k3 4 - 4110*k1 6*k2 6*k3
    6 + 8820*k1 6*k2 4*k3 8 - 12440*k1 6*k2 2*k3 10 + 43470*k1 4*k2 10*k3 4 - 22710*k1 4*k2 8*k3 6 + 8820*k1 4*k2 6*k3 8 - 9745*k1 2*k2
    12*k3 4 + 7050*k1 2*k2 10*k3 6 + 15135*k1 2*k2 8*k3 8 - 12440*k1 2*k2 6*k3 10)*q 6 + (825*k1 12*k3 4 - 3780*k1 10*k2 6 - 4275*k1 10*k2
    2*k3 4 - 2475*k1 10*k3 6 + 7560*k1 8*k2 8 + 2520*k1 8*k2 6*k3 2 + 2355*k1 8*k2 4*k3 4 + 6570*k1 8*k2 2*k3 6 + 2475*k1 8*k3 8 - 3780*k1
    6*k2 10 + 2520*k1 6*k2 8*k3 2 + 3450*k1 6*k2 6*k3 4 + 2025*k1 6*k2 4*k3 6 - 2295*k1 6*k2 2*k3 8 - 825*k1 6*k3 10 + 2355*k1 4*k2 8*k3 4 +
    2025*k1 4*k2 6*k3 6 - 4275*k1 2*k2 10*k3 4 + 6570*k1 2*k2 8*k3 6 - 2295*k1 2*k2 6*k3 8 + 825*k2 12*k3 4 - 2475*k2 10*k3 6 + 2475*k2 8*k3
    8 - 825*k2 6*k3 10)*q 8

/-- Rational part of the beta function of `k1` in `kernel_gamma2t_reg3rd`, times `(k1+q)^4` (numerator). -/
def g2tRegN1 (k1 k2 k3 q : ℕ → ℝ) : ℝ :=
  (-(39*k1 18) + 582*k1 16*k2 2 + 5763*k1 16*k3 2 - 51*k1 14*k2 4 - 3528*k1 14*k2 2*k3 2 - 4737*k1 14*k3 4 - 492*k1 12*k2 6 - 2403*k1
    12*k2 4*k3 2 - 918*k1 12*k2 2*k3 4 - 987*k1 12*k3 6) + (-(156*k1 17) + 2328*k1 15*k2 2 + 23052*k1 15*k3 2 - 204*k1 13*k2 4 - 14112*k1
    13*k2 2*k3 2 - 18948*k1 13*k3 4 - 1968*k1 11*k2 6 - 9612*k1 11*k2 4*k3 2 - 3672*k1 11*k2 2*k3 4 - 3948*k1 11*k3 6)*q 1 + (1778*k1 16 -
    4369*k1 14*k2 2 + 16234*k1 14*k3 2 + 6244*k1 12*k2 4 - 5046*k1 12*k2 2*k3 2 - 15250*k1 12*k3 4 - 3149*k1 10*k2 6 - 11376*k1 10*k2 4*k3 2
    - 57*k1 10*k2 2*k3 4 - 6218*k1 10*k3 6)*q 2 + (8516*k1 15 - 38428*k1 13*k2 2 - 142532*k1 13*k3 2 + 26812*k1 11*k2 4 + 106824*k1 11*k2
    2*k3 2 + 109532*k1 11*k3 4 + 5116*k1 9*k2 6 + 41004*k1 9*k2 4*k3 2 + 32820*k1 9*k2 2*k3 4 + 10660*k1 9*k3 6)*q 3 + (6579*k1 14 -
    20055*k1 12*k2 2 - 12971*k1 12*k3 2 + 20525*k1 10*k2 4 + 31446*k1 10*k2 2*k3 2 + 1341*k1 10*k3 4 - 4865*k1 8*k2 6 - 15171*k1 8*k2 4*k3 2
    + 9161*k1 8*k2 2*k3 4 - 9925*k1 8*k3 6)*q 4 + (-(43256*k1 13) + 160096*k1 11*k2 2 + 185880*k1 11*k3 2 - 149960*k1 9*k2 4 - 195888*k1
    9*k2 2*k3 2 - 121448*k1 9*k3 4 + 23712*k1 7*k2 6 + 6024*k1 7*k2 4*k3 2 - 92272*k1 7*k2 2*k3 4 + 43336*k1 7*k3 6)*q 5 + (860*k1 12 +
    1814*k1 10*k2 2 - 32836*k1 10*k3 2 - 2680*k1 8*k2 4 + 49732*k1 8*k2 2*k3 2 + 14260*k1 8*k3 4 + 2190*k1 6*k2 6 - 8616*k1 6*k2 4*k3 2 -
    1114*k1 6*k2 2*k3 4 + 2740*k1 6*k3 6)*q 6 + (38440*k1 11 - 165416*k1 9*k2 2 - 35176*k1 9*k3 2 + 164968*k1 7*k2 4 - 8192*k1 7*k2 2*k3 2 +
    41592*k1 7*k3 4 - 35976*k1 5*k2 6 + 9048*k1 5*k2 4*k3 2 + 85608*k1 5*k2 2*k3 4 - 58680*k1 5*k3 6)*q 7 + (-(6321*k1 10) + 22632*k1 8*k2 2
    - 10819*k1 8*k3 2 - 21329*k1 6*k2 4 + 14740*k1 6*k2 2*k3 2 + 2937*k1 6*k3 4 + 5522*k1 4*k2 6 - 1353*k1 4*k2 4*k3 2 - 14916*k1 4*k2 2*k3
    4 + 10747*k1 4*k3 6)*q 8 + (-(2668*k1 9) + 37928*k1 7*k2 2 + 7260*k1 7*k3 2 - 45036*k1 5*k2 4 + 33936*k1 5*k2 2*k3 2 - 12564*k1 5*k3 4 +
    9776*k1 3*k2 6 - 11580*k1 3*k2 4*k3 2 - 6168*k1 3*k2 2*k3 4 + 7972*k1 3*k3 6)*q 9 + (-(2638*k1 8) + 5243*k1 6*k2 2 - 1830*k1 6*k3 2 -
    3564*k1 4*k2 4 - 3342*k1 4*k2 2*k3 2 + 990*k1 4*k3 4 + 959*k1 2*k2 6 + 1560*k1 2*k2 4*k3 2 - 5997*k1 2*k2 2*k3 4 + 3478*k1 2*k3 6)*q 10
    + (-(876*k1 7) - 1884*k1 5*k2 2 - 1620*k1 5*k3 2 + 3420*k1 3*k2 4 - 5256*k1 3*k2 2*k3 2 + 1836*k1 3*k3 4 - 660*k1 1*k2 6 + 1980*k1 1*k2
    4*k3 2 - 1980*k1 1*k2 2*k3 4 + 660*k1 1*k3 6)*q 11 + (-(219*k1 6) - 471*k1 4*k2 2 - 405*k1 4*k3 2 + 855*k1 2*k2 4 - 1314*k1 2*k2 2*k3 2
    + 459*k1 2*k3 4 - 165*k2 6 + 495*k2 4*k3 2 - 495*k2 2*k3 4 + 165*k3 6)*q 12

set_option maxHeartbeats 2000000 in
theorem g2tRegN1_eq (k1 k2 k3 q : ℝ) (h1 : 0 < k1) (h2 : 0 < k2) (h3 : 0 < k3) (hq : 0 < q) :
    g2tCL1 (pw k1) (pw k2) (pw k3) (pw q) * (4 * k1 * q / (k1 + q) ^ 2 + (4 * k1 * q / (k1 + q) ^ 2) ^ 2 / 2 + (4 * k1 * q / (k1 + q) ^ 2) ^ 3 / 3) =
    g2tRegN1 (pw k1) (pw k2) (pw k3) (pw q) / (310464 * k1 ^ 8 * k2 ^ 2 * q ^ 4) / (k1 + q) ^ 4 := by
  simp only [g2tCL1, g2tRegN1, pw, pow_one]
  field_simp
  ring

/-- Rational part of the beta function of `k2` in `kernel_gamma2t_reg3rd`, times `(k2+q)^4` (numerator). -/
def g2tRegN2 (k1 k2 k3 q : ℕ → ℝ) : ℝ :=
  (-(492*k1 6*k2 12) - 51*k1 4*k2 14 - 2403*k1 4*k2 12*k3 2 + 582*k1 2*k2 16 - 3528*k1 2*k2 14*k3 2 - 918*k1 2*k2 12*k3 4 - 39*k2 18 +
    5763*k2 16*k3 2 - 4737*k2 14*k3 4 - 987*k2 12*k3 6) + (-(1968*k1 6*k2 11) - 204*k1 4*k2 13 - 9612*k1 4*k2 11*k3 2 + 2328*k1 2*k2 15 -
    14112*k1 2*k2 13*k3 2 - 3672*k1 2*k2 11*k3 4 - 156*k2 17 + 23052*k2 15*k3 2 - 18948*k2 13*k3 4 - 3948*k2 11*k3 6)*q 1 + (-(3149*k1 6*k2
    10) + 6244*k1 4*k2 12 - 11376*k1 4*k2 10*k3 2 - 4369*k1 2*k2 14 - 5046*k1 2*k2 12*k3 2 - 57*k1 2*k2 10*k3 4 + 1778*k2 16 + 16234*k2
    14*k3 2 - 15250*k2 12*k3 4 - 6218*k2 10*k3 6)*q 2 + (5116*k1 6*k2 9 + 26812*k1 4*k2 11 + 41004*k1 4*k2 9*k3 2 - 38428*k1 2*k2 13 +
    106824*k1 2*k2 11*k3 2 + 32820*k1 2*k2 9*k3 4 + 8516*k2 15 - 142532*k2 13*k3 2 + 109532*k2 11*k3 4 + 10660*k2 9*k3 6)*q 3 + (-(4865*k1
    6*k2 8) + 20525*k1 4*k2 10 - 15171*k1 4*k2 8*k3 2 - 20055*k1 2*k2 12 + 31446*k1 2*k2 10*k3 2 + 9161*k1 2*k2 8*k3 4 + 6579*k2 14 -
    12971*k2 12*k3 2 + 1341*k2 10*k3 4 - 9925*k2 8*k3 6)*q 4 + (23712*k1 6*k2 7 - 149960*k1 4*k2 9 + 6024*k1 4*k2 7*k3 2 + 160096*k1 2*k2 11
    - 195888*k1 2*k2 9*k3 2 - 92272*k1 2*k2 7*k3 4 - 43256*k2 13 + 185880*k2 11*k3 2 - 121448*k2 9*k3 4 + 43336*k2 7*k3 6)*q 5 + (2190*k1
    6*k2 6 - 2680*k1 4*k2 8 - 8616*k1 4*k2 6*k3 2 + 1814*k1 2*k2 10 + 49732*k1 2*k2 8*k3 2 - 1114*k1 2*k2 6*k3 4 + 860*k2 12 - 32836*k2
    10*k3 2 + 14260*k2 8*k3 4 + 2740*k2 6*k3 6)*q 6 + (-(35976*k1 6*k2 5) + 164968*k1 4*k2 7 + 9048*k1 4*k2 5*k3 2 - 165416*k1 2*k2 9 -
    8192*k1 2*k2 7*k3 2 + 85608*k1 2*k2 5*k3 4 + 38440*k2 11 - 35176*k2 9*k3 2 + 41592*k2 7*k3 4 - 58680*k2 5*k3 6)*q 7 + (5522*k1 6*k2 4 -
    21329*k1 4*k2 6 - 1353*k1 4*k2 4*k3 2 + 22632*k1 2*k2 8 + 14740*k1 2*k2 6*k3 2 - 14916*k1 2*k2 4*k3 4 - 6321*k2 10 - 10819*k2 8*k3 2 +
    2937*k2 6*k3 4 + 10747*k2 4*k3 6)*q 8 + (9776*k1 6*k2 3 - 45036*k1 4*k2 5 - 11580*k1 4*k2 3*k3 2 + 37928*k1 2*k2 7 + 33936*k1 2*k2 5*k3
    2 - 6168*k1 2*k2 3*k3 4 - 2668*k2 9 + 7260*k2 7*k3 2 - 12564*k2 5*k3 4 + 7972*k2 3*k3 6)*q 9 + (959*k1 6*k2 2 - 3564*k1 4*k2 4 + 1560*k1
    4*k2 2*k3 2 + 5243*k1 2*k2 6 - 3342*k1 2*k2 4*k3 2 - 5997*k1 2*k2 2*k3 4 - 2638*k2 8 - 1830*k2 6*k3 2 + 990*k2 4*k3 4 + 3478*k2 2*k3
    6)*q 10 + (-(660*k1 6*k2 1) + 3420*k1 4*k2 3 + 1980*k1 4*k2 1*k3 2 - 1884*k1 2*k2 5 - 5256*k1 2*k2 3*k3 2 - 1980*k1 2*k2 1*k3 4 - 876*k2
    7 - 1620*k2 5*k3 2 + 1836*k2 3*k3 4 + 660*k2 1*k3 6)*q 11 + (-(165*k1 6) + 855*k1 4*k2 2 + 495*k1 4*k3 2 - 471*k1 2*k2 4 - 1314*k1 2*k2
    2*k3 2 - 495*k1 2*k3 4 - 219*k2 6 - 405*k2 4*k3 2 + 459*k2 2*k3 4 + 165*k3 6)*q 12

set_option maxHeartbeats 2000000 in
theorem g2tRegN2_eq (k1 k2 k3 q : ℝ) (h1 : 0 < k1) (h2 : 0 < k2) (h3 : 0 < k3) (hq : 0 < q) :
    g2tCL2 (pw k1) (pw k2) (pw k3) (pw q) * (4 * k2 * q / (k2 + q) ^ 2 + (4 * k2 * q / (k2 + q) ^ 2) ^ 2 / 2 + (4 * k2 * q / (k2 + q) ^ 2) ^ 3 / 3) =
    g2tRegN2 (pw k1) (pw k2) (pw k3) (pw q) / (310464 * k1 ^ 2 * k2 ^ 8 * q ^ 4) / (k2 + q) ^ 4 := by
  simp only [g2tCL2, g2tRegN2, pw, pow_one]
  field_simp
  ring

/-- Rational part of the beta function of `k3` in `kernel_gamma2t_reg3rd`, times `(k3+q)^5` (numerator). -/
def g2tRegN3 (k1 k2 k3 q : ℕ → ℝ) : ℝ :=
  (24*k1 6*k3 11 - 216*k1 4*k2 2*k3 11 + 384*k1 4*k3 13 - 216*k1 2*k2 4*k3 11 - 768*k1 2*k2 2*k3 13 - 360*k1 2*k3 15 + 24*k2 6*k3 11 +
    384*k2 4*k3 13 - 360*k2 2*k3 15 - 48*k3 17) + (120*k1 6*k3 10 - 1080*k1 4*k2 2*k3 10 + 1920*k1 4*k3 12 - 1080*k1 2*k2 4*k3 10 - 3840*k1
    2*k2 2*k3 12 - 1800*k1 2*k3 14 + 120*k2 6*k3 10 + 1920*k2 4*k3 12 - 1800*k2 2*k3 14 - 240*k3 16)*q 1 + (281*k1 6*k3 9 - 2145*k1 4*k2
    2*k3 9 + 2384*k1 4*k3 11 - 2145*k1 2*k2 4*k3 9 - 4192*k1 2*k2 2*k3 11 - 2391*k1 2*k3 13 + 281*k2 6*k3 9 + 2384*k2 4*k3 11 - 2391*k2 2*k3
    13 - 466*k3 15)*q 2 + (61*k1 6*k3 8 + 1371*k1 4*k2 2*k3 8 - 9584*k1 4*k3 10 + 1371*k1 2*k2 4*k3 8 + 22048*k1 2*k2 2*k3 10 + 8205*k1 2*k3
    12 + 61*k2 6*k3 8 - 9584*k2 4*k3 10 + 8205*k2 2*k3 12 + 358*k3 14)*q 3 + (358*k1 6*k3 7 - 70*k1 4*k2 2*k3 7 - 12376*k1 4*k3 9 - 70*k1
    2*k2 4*k3 7 + 30536*k1 2*k2 2*k3 9 + 10130*k1 2*k3 11 + 358*k2 6*k3 7 - 12376*k2 4*k3 9 + 10130*k2 2*k3 11 + 24*k3 13)*q 4 + (-(826*k1
    6*k3 6) + 1690*k1 4*k2 2*k3 6 + 14536*k1 4*k3 8 + 1690*k1 2*k2 4*k3 6 - 32408*k1 2*k2 2*k3 8 - 12254*k1 2*k3 10 - 826*k2 6*k3 6 +
    14536*k2 4*k3 8 - 12254*k2 2*k3 10 - 24*k3 12)*q 5 + (-(816*k1 6*k3 5) + 1176*k1 4*k2 2*k3 5 + 13124*k1 4*k3 7 + 1176*k1 2*k2 4*k3 5 -
    25248*k1 2*k2 2*k3 7 - 11740*k1 2*k3 9 - 816*k2 6*k3 5 + 13124*k2 4*k3 7 - 11740*k2 2*k3 9 - 280*k3 11)*q 6 + (312*k1 6*k3 4 - 240*k1
    4*k2 2*k3 4 - 4844*k1 4*k3 6 - 240*k1 2*k2 4*k3 4 + 5664*k1 2*k2 2*k3 6 + 4540*k1 2*k3 8 + 312*k2 6*k3 4 - 4844*k2 4*k3 6 + 4540*k2 2*k3
    8 + 856*k3 10)*q 7 + (18*k1 6*k3 3 - 18*k1 4*k2 2*k3 3 - 2148*k1 4*k3 5 - 18*k1 2*k2 4*k3 3 + 2928*k1 2*k2 2*k3 5 + 1486*k1 2*k3 7 +
    18*k2 6*k3 3 - 2148*k2 4*k3 5 + 1486*k2 2*k3 7 + 1004*k3 9)*q 8 + (306*k1 6*k3 2 - 306*k1 4*k2 2*k3 2 - 2964*k1 4*k3 4 - 306*k1 2*k2
    4*k3 2 + 4848*k1 2*k2 2*k3 4 + 3230*k1 2*k3 6 + 306*k2 6*k3 2 - 2964*k2 4*k3 4 + 3230*k2 2*k3 6 - 500*k3 8)*q 9 + (135*k1 6*k3 1 -
    135*k1 4*k2 2*k3 1 - 1908*k1 4*k3 3 - 135*k1 2*k2 4*k3 1 + 3456*k1 2*k2 2*k3 3 + 1827*k1 2*k3 5 + 135*k2 6*k3 1 - 1908*k2 4*k3 3 +
    1827*k2 2*k3 5 - 54*k3 7)*q 10 + (27*k1 6 - 27*k1 4*k2 2 + 828*k1 4*k3 2 - 27*k1 2*k2 4 - 1728*k1 2*k2 2*k3 2 - 441*k1 2*k3 4 + 27*k2 6
    + 828*k2 4*k3 2 - 441*k2 2*k3 4 - 414*k3 6)*q 11 + (540*k1 4*k3 1 - 1080*k1 2*k2 2*k3 1 - 360*k1 2*k3 3 + 540*k2 4*k3 1 - 360*k2 2*k3 3
    - 180*k3 5)*q 12 + (108*k1 4 - 216*k1 2*k2 2 - 72*k1 2*k3 2 + 108*k2 4 - 72*k2 2*k3 2 - 36*k3 4)*q 13

set_option maxHeartbeats 2000000 in
theorem g2tRegN3_eq (k1 k2 k3 q : ℝ) (h1 : 0 < k1) (h2 : 0 < k2) (h3 : 0 < k3) (hq : 0 < q) :
    g2tCL3 (pw k1) (pw k2) (pw k3) (pw q) * (4 * k3 * q / (k3 + q) ^ 2 + (4 * k3 * q / (k3 + q) ^ 2) ^ 2 / 2 + (4 * k3 * q / (k3 + q) ^ 2) ^ 3 / 3) =
    g2tRegN3 (pw k1) (pw k2) (pw k3) (pw q) / (44352 * k1 ^ 2 * k2 ^ 2 * k3 ^ 4 * q ^ 4) / (k3 + q) ^ 5 := by
  simp only [g2tCL3, g2tRegN3, pw, pow_one]
  field_simp
  ring

set_option maxHeartbeats 20000000 in
set_option maxRecDepth 4000 in
theorem g2tReg_poly (k1 k2 k3 q : ℝ) :
    8 * k1 ^ 3 * k2 ^ 3 * k3 ^ 3 * (g2tPoly0 (pw k1) (pw k2) (pw k3) (pw q) + g2tPoly1 (pw k1) (pw k2) (pw k3) (pw q) + g2tPoly2 (pw k1) (pw k2) (pw k3) (pw q) + g2tPoly3 (pw k1) (pw k2) (pw k3) (pw q) + g2tPoly4 (pw k1) (pw k2) (pw k3) (pw q) + g2tPoly5 (pw k1) (pw k2) (pw k3) (pw q) + g2tPoly6 (pw k1) (pw k2) (pw k3) (pw q) + g2tPoly7 (pw k1) (pw k2) (pw k3) (pw q) + g2tPoly8 (pw k1) (pw k2) (pw k3) (pw q) + g2tPoly9 (pw k1) (pw k2) (pw k3) (pw q) + g2tPoly10 (pw k1) (pw k2) (pw k3) (pw q) + g2tPoly11 (pw k1) (pw k2) (pw k3) (pw q) + g2tPoly12 (pw k1) (pw k2) (pw k3) (pw q) + g2tPoly13 (pw k1) (pw k2) (pw k3) (pw q) + g2tPoly14 (pw k1) (pw k2) (pw k3) (pw q) + g2tPoly15 (pw k1) (pw k2) (pw k3) (pw q) + g2tPoly16 (pw k1) (pw k2) (pw k3) (pw q)) = π * ((k3 + q) ^ 5 * ((k2 + q) ^ 4 * ((k1 + q) ^ 4 * g2tRegN0 (pw k1) (pw k2) (pw k3) (pw q) + 5 * k2 ^ 6 * k3 ^ 4 * g2tRegN1 (pw k1) (pw k2) (pw k3) (pw q)) +
      (k1 + q) ^ 4 * (5 * k1 ^ 6 * k3 ^ 4 * g2tRegN2 (pw k1) (pw k2) (pw k3) (pw q))) + (k1 + q) ^ 4 * ((k2 + q) ^ 4 * (35 * k1 ^ 6 * k2 ^ 6 * g2tRegN3 (pw k1) (pw k2) (pw k3) (pw q)))) := by
  simp only [g2tPoly0, g2tPoly1, g2tPoly2, g2tPoly3, g2tPoly4, g2tPoly5, g2tPoly6, g2tPoly7, g2tPoly8, g2tPoly9, g2tPoly10, g2tPoly11, g2tPoly12, g2tPoly13, g2tPoly14, g2tPoly15, g2tPoly16, g2tRegN0, g2tRegN1, g2tRegN2, g2tRegN3, pw, pow_one]
  ring

end

end Verif
