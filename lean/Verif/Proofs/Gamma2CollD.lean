import Verif.Proofs.TriColl

/-!
# The second-order loop kernel of the density for a short third side

Pieces and remainders found by `tools/g2limits` and checked here.
-/

set_option linter.unusedSimpArgs false
set_option linter.unusedVariables false

namespace Verif

noncomputable section

open Real Asymptotics Filter Topology

/-- The polynomials of term 0 of `kernel_gamma2d_coll` (`src/gamma2d_1loop.c:372-513`). -/
def g2dColl0P (k1 k2 q : ℕ → ℝ) : ℝ :=
  (-84)*k1 7*k2 7*q 3*(43*k1 6 + 43*k2 6 - 3408*k2 4*q 2 - 2275*k2 2*q 4 + 180*q 6 - k1 4*(403*k2 2 + 3408*q 2) + k1 2*((-403)*k2 4 +
    7736*k2 2*q 2 - 2275*q 4)) + 12*k1 1*k2 1*q 1*(195*k1 14*k2 6 + 825*k2 12*q 8 - 5*k1 2*k2 10*q 6*(1949*k2 2 + 855*q 2) + 5*k1 4*k2 8*q
    4*(3895*k2 4 + 8694*k2 2*q 2 + 471*q 4) + k1 10*k2 2*(510*k2 8 + 6590*k2 6*q 2 - 139742*k2 4*q 4 + 43470*k2 2*q 6 - 4275*q 8) - 5*k1
    12*(90*k2 8 + 1822*k2 6*q 2 - 3895*k2 4*q 4 + 1949*k2 2*q 6 - 165*q 8) + k1 8*k2 4*((-450)*k2 8 + 6590*k2 6*q 2 + 246974*k2 4*q 4 -
    49650*k2 2*q 6 + 2355*q 8) + k1 6*k2 6*(195*k2 8 - 9110*k2 6*q 2 - 139742*k2 4*q 4 - 49650*k2 2*q 6 + 3450*q 8))

/-- The logarithm of `k1` of term 0 of `kernel_gamma2d_coll` (`src/gamma2d_1loop.c:372-513`). -/
def g2dColl0A (k1 k2 q : ℕ → ℝ) : ℝ :=
  45*k2 7*(k1 1 - q 1)*(k1 1 - q 1)*(k1 1 + q 1)*(k1 1 + q 1)*(13*k1 12 + 55*k2 6*q 6 - k1 10*(194*k2 2 + 649*q 2) + k1 8*(17*k2 4 +
    2297*k2 2*q 2 + 563*q 4) + k1 6*(164*k2 6 - 2155*k2 4*q 2 - 2428*k2 2*q 4 + 73*q 6) + k1 4*(339*k2 6*q 2 + 2423*k2 4*q 4 + 157*k2 2*q 6)
    - 3*k1 2*(186*k2 6*q 4 + 95*k2 4*q 6))*2*(Real.log (abs ((k1 1 + q 1)/(k1 1 - q 1))))

/-- The logarithm of `k2` of term 0 of `kernel_gamma2d_coll` (`src/gamma2d_1loop.c:372-513`). -/
def g2dColl0B (k1 k2 q : ℕ → ℝ) : ℝ :=
  45*k1 7*(k2 1 - q 1)*(k2 1 - q 1)*(k2 1 + q 1)*(k2 1 + q 1)*(k1 6*(164*k2 6 + 339*k2 4*q 2 - 558*k2 2*q 4 + 55*q 6) + k2 6*(13*k2 6 -
    649*k2 4*q 2 + 563*k2 2*q 4 + 73*q 6) + k1 4*(17*k2 8 - 2155*k2 6*q 2 + 2423*k2 4*q 4 - 285*k2 2*q 6) + k1 2*((-194)*k2 10 + 2297*k2 8*q
    2 - 2428*k2 6*q 4 + 157*k2 4*q 6))*2*(Real.log (abs ((k2 1 + q 1)/(k2 1 - q 1))))

/-- The logarithm with `k1²-k2²+q²` of term 0 of `kernel_gamma2d_coll` (`src/gamma2d_1loop.c:372-513`). -/
def g2dColl0W3 (k1 k2 q : ℕ → ℝ) : ℝ :=
  7560*k1 10*k2 7*q 4*(k2 2 - q 2)*(k2 2 - q 2)*(Real.log ((2*k1 2*q 1 - k2 2*q 1 + q 3 + 2*k1 1*(Real.sqrt (q 2*(k1 2 - k2 2 + q
    2))))/(2*k1 2*q 1 - k2 2*q 1 + q 3 - 2*k1 1*(Real.sqrt (q 2*(k1 2 - k2 2 + q 2))))))/(Real.sqrt (q 2*(k1 2 - k2 2 + q 2)))

/-- The logarithm with `k2²-k1²+q²` of term 0 of `kernel_gamma2d_coll` (`src/gamma2d_1loop.c:372-513`). -/
def g2dColl0W2 (k1 k2 q : ℕ → ℝ) : ℝ :=
  7560*k1 7*k2 10*q 4*(k1 2 - q 2)*(k1 2 - q 2)*(Real.log (-((-(k1 2*q 1) + 2*k2 2*q 1 + q 3 + 2*k2 1*(Real.sqrt (q 2*(-k1 2 + k2 2 + q
    2))))/(k1 2*q 1 - 2*k2 2*q 1 - q 3 + 2*k2 1*(Real.sqrt (q 2*(-k1 2 + k2 2 + q 2)))))))/(Real.sqrt (q 2*(-k1 2 + k2 2 + q 2)))

theorem g2dColl0_split (k1 k2 eps q : ℕ → ℝ) : g2dColl0 k1 k2 eps q =
    π*(g2dColl0P k1 k2 q - g2dColl0A k1 k2 q - g2dColl0B k1 k2 q - g2dColl0W3 k1 k2 q - g2dColl0W2 k1 k2 q)/(6.20928e6*k1 9*k2 9*q 5) := rfl

/-- The polynomials of term 1 of `kernel_gamma2d_coll` (`src/gamma2d_1loop.c:372-513`). -/
def g2dColl1P (k1 k2 q : ℕ → ℝ) : ℝ :=
  8*k1 7*k2 9*q 1*(353*k1 6 + 353*k2 6 - 12896*k2 4*q 2 - 30541*k2 2*q 4 + 1785*q 6 - k1 4*(2033*k2 2 + 12896*q 2) + k1 2*((-2033)*k2 4 +
    31896*k2 2*q 2 - 30541*q 4)) - 4*k1 1*k2 3*q 1*(12075*k1 12*k2 6 + 7425*k2 10*q 8 - 90*k1 2*k2 8*q 6*(653*k2 2 + 219*q 2) + 15*k1 4*k2
    6*q 4*(7096*k2 4 + 6566*k2 2*q 2 - 405*q 4) + k1 6*k2 4*(12075*k2 8 - 222610*k2 6*q 2 - 250234*k2 4*q 4 + 57210*k2 2*q 6 - 6075*q 8) -
    5*k1 10*(4503*k2 8 + 44522*k2 6*q 2 - 21288*k2 4*q 4 + 11754*k2 2*q 6 - 1485*q 8) + k1 8*((-22515)*k2 10 + 455660*k2 8*q 2 - 250234*k2
    6*q 4 + 98490*k2 4*q 6 - 19710*k2 2*q 8))

/-- The logarithm of `k1` of term 1 of `kernel_gamma2d_coll` (`src/gamma2d_1loop.c:372-513`). -/
def g2dColl1A (k1 k2 q : ℕ → ℝ) : ℝ :=
  15*k2 9*(k1 1 - q 1)*(k1 1 - q 1)*(k1 1 + q 1)*(k1 1 + q 1)*(791*k1 10 + 495*k2 4*q 6 - k1 8*(2120*k2 2 + 1787*q 2) + k1 6*(633*k2 4 -
    758*k2 2*q 2 + 1113*q 4) + k1 4*(1677*k2 4*q 2 + 4376*k2 2*q 4 - 405*q 6) - 3*k1 2*(1031*k2 4*q 4 + 438*k2 2*q 6))*2*(Real.log (abs ((k1
    1 + q 1)/(k1 1 - q 1))))

/-- The logarithm of `k2` of term 1 of `kernel_gamma2d_coll` (`src/gamma2d_1loop.c:372-513`). -/
def g2dColl1B (k1 k2 q : ℕ → ℝ) : ℝ :=
  15*k1 7*k2 2*(k2 1 - q 1)*(k2 1 - q 1)*(k2 1 + q 1)*(k2 1 + q 1)*(k2 4*(791*k2 6 - 1787*k2 4*q 2 + 1113*k2 2*q 4 - 405*q 6) + 3*k1
    4*(211*k2 6 + 559*k2 4*q 2 - 1031*k2 2*q 4 + 165*q 6) - 2*k1 2*(1060*k2 8 + 379*k2 6*q 2 - 2188*k2 4*q 4 + 657*k2 2*q 6))*2*(Real.log
    (abs ((k2 1 + q 1)/(k2 1 - q 1))))

/-- The logarithm with `k1²-k2²+q²` of term 1 of `kernel_gamma2d_coll` (`src/gamma2d_1loop.c:372-513`). -/
def g2dColl1W3 (k1 k2 q : ℕ → ℝ) : ℝ :=
  420*k1 10*k2 9*q 3*(k2 2 - q 2)*(k2 2 - q 2)*((-36)*k1 1*(Real.sqrt (q 2*(k1 2 - k2 2 + q 2))) + q 1*(14*k1 2 - 5*k2 2 + 5*q
    2)*(Real.log ((2*k1 2*q 1 - k2 2*q 1 + q 3 + 2*k1 1*(Real.sqrt (q 2*(k1 2 - k2 2 + q 2))))/(2*k1 2*q 1 - k2 2*q 1 + q 3 - 2*k1
    1*(Real.sqrt (q 2*(k1 2 - k2 2 + q 2)))))))/((q 2*(k1 2 - k2 2 + q 2))^(1.5:ℝ))

/-- The logarithm with `k2²-k1²+q²` of term 1 of `kernel_gamma2d_coll` (`src/gamma2d_1loop.c:372-513`). -/
def g2dColl1W2 (k1 k2 q : ℕ → ℝ) : ℝ :=
  420*k1 7*k2 12*q 3*(k1 2 - q 2)*(k1 2 - q 2)*(36*k2 1*(Real.sqrt (q 2*(-k1 2 + k2 2 + q 2))) + q 1*(5*k1 2 - 14*k2 2 - 5*q 2)*(Real.log
    (-((-(k1 2*q 1) + 2*k2 2*q 1 + q 3 + 2*k2 1*(Real.sqrt (q 2*(-k1 2 + k2 2 + q 2))))/(k1 2*q 1 - 2*k2 2*q 1 - q 3 + 2*k2 1*(Real.sqrt (q
    2*(-k1 2 + k2 2 + q 2))))))))/((q 2*(-k1 2 + k2 2 + q 2))^(1.5:ℝ))

theorem g2dColl1_split (k1 k2 eps q : ℕ → ℝ) : g2dColl1 k1 k2 eps q =
    eps 2*π*(g2dColl1P k1 k2 q + g2dColl1A k1 k2 q + g2dColl1B k1 k2 q + g2dColl1W3 k1 k2 q - g2dColl1W2 k1 k2 q)/(6.20928e6*k1 9*k2 9*q 5) := rfl

/-- The polynomials of term 2 of `kernel_gamma2d_coll` (`src/gamma2d_1loop.c:372-513`). -/
def g2dColl2P (k1 k2 q : ℕ → ℝ) : ℝ :=
  17280*k1 7*k2 11*q 1*(k1 2 - q 2)*(k2 2 - q 2) + 4*k1 7*k2 11*(304*k1 6 + 304*k2 6 - 4416*k2 4*q 2 + 21649*k2 2*q 4 + 224*q 6 - 64*k1
    4*(38*k2 2 + 69*q 2) + k1 2*((-2432)*k2 4 + 15872*k2 2*q 2 + 21649*q 4))/q 1 + 4*k1 1*k2 5*q 1*(5655*k1 10*k2 6 + 7425*k2 8*q 8 + 45*k1
    4*(865*k2 8*q 4 + 148*k2 6*q 6) + k1 6*k2 2*(5655*k2 8 - 120370*k2 6*q 2 + 9532*k2 4*q 4 + 6660*k2 2*q 6 - 6885*q 8) + 5*k1 8*(2820*k2 8
    - 24074*k2 6*q 2 + 7785*k2 4*q 4 - 5967*k2 2*q 6 + 1485*q 8) - 2295*k1 2*(13*k2 8*q 6 + 3*k2 6*q 8))

/-- The logarithm of `k1` of term 2 of `kernel_gamma2d_coll` (`src/gamma2d_1loop.c:372-513`). -/
def g2dColl2A (k1 k2 q : ℕ → ℝ) : ℝ :=
  15*k2 11*(k1 1 - q 1)*(k1 1 - q 1)*(k1 1 + q 1)*(k1 1 + q 1)*(601*k1 8 + 495*k2 2*q 6 + k1 6*(390*k2 2 + 179*q 2) + k1 4*(391*k2 2*q 2 -
    321*q 4) - 3*k1 2*(388*k2 2*q 4 + 153*q 6))*2*(Real.log (abs ((k1 1 + q 1)/(k1 1 - q 1))))

/-- The logarithm of `k2` of term 2 of `kernel_gamma2d_coll` (`src/gamma2d_1loop.c:372-513`). -/
def g2dColl2B (k1 k2 q : ℕ → ℝ) : ℝ :=
  15*k1 7*k2 4*(k2 1 - q 1)*(k2 1 - q 1)*(k2 1 + q 1)*(k2 1 + q 1)*(601*k2 8 + 179*k2 6*q 2 - 321*k2 4*q 4 - 459*k2 2*q 6 + k1 2*(390*k2 6
    + 391*k2 4*q 2 - 1164*k2 2*q 4 + 495*q 6))*2*(Real.log (abs ((k2 1 + q 1)/(k2 1 - q 1))))

/-- The logarithm with `k1²-k2²+q²` of term 2 of `kernel_gamma2d_coll` (`src/gamma2d_1loop.c:372-513`). -/
def g2dColl2W3 (k1 k2 q : ℕ → ℝ) : ℝ :=
  105*k1 10*k2 11*q 1*(power (k2 2 - q 2) 6)*(Real.sqrt (q 2*(k1 2 - k2 2 + q 2)))*((-4)*k1 1*(Real.sqrt (q 2*(k1 2 - k2 2 + q
    2)))*((-10)*k1 2 + 17*(-k2 2 + q 2)) + q 1*(16*k1 4 - 60*k1 2*(k2 2 - q 2) + 17*(k2 2 - q 2)*(k2 2 - q 2))*(Real.log ((2*k1 2*q 1 - k2
    2*q 1 + q 3 + 2*k1 1*(Real.sqrt (q 2*(k1 2 - k2 2 + q 2))))/(2*k1 2*q 1 - k2 2*q 1 + q 3 - 2*k1 1*(Real.sqrt (q 2*(k1 2 - k2 2 + q
    2)))))))/(power (k1 2 - k2 2 + q 2) 3*(power (-(k2 2*q 1) + q 3) 4))

/-- The logarithm with `k2²-k1²+q²` of term 2 of `kernel_gamma2d_coll` (`src/gamma2d_1loop.c:372-513`). -/
def g2dColl2W2 (k1 k2 q : ℕ → ℝ) : ℝ :=
  105*k1 7*k2 14*q 1*(power (k1 2 - q 2) 6)*(Real.sqrt (q 2*(-k1 2 + k2 2 + q 2)))*((-4)*k2 1*(Real.sqrt (q 2*(-k1 2 + k2 2 + q
    2)))*((-17)*k1 2 - 10*k2 2 + 17*q 2) + q 1*(17*k1 4 + 16*k2 4 + 60*k2 2*q 2 + 17*q 4 - 2*k1 2*(30*k2 2 + 17*q 2))*(Real.log (-((-(k1 2*q
    1) + 2*k2 2*q 1 + q 3 + 2*k2 1*(Real.sqrt (q 2*(-k1 2 + k2 2 + q 2))))/(k1 2*q 1 - 2*k2 2*q 1 - q 3 + 2*k2 1*(Real.sqrt (q 2*(-k1 2 + k2
    2 + q 2))))))))/(power (-k1 2 + k2 2 + q 2) 3*(power (-(k1 2*q 1) + q 3) 4))

theorem g2dColl2_split (k1 k2 eps q : ℕ → ℝ) : g2dColl2 k1 k2 eps q =
    eps 4*π*(g2dColl2P k1 k2 q - g2dColl2A k1 k2 q - g2dColl2B k1 k2 q + g2dColl2W3 k1 k2 q + g2dColl2W2 k1 k2 q)/(6.20928e6*k1 9*k2 9*q 5) := rfl

theorem g2dColl0W3_eq (k1 k2 q s t : ℝ) (h1 : 0 < k1) (h2 : 0 < k2) (hq : 0 < q) (hmu : 0 < k1 ^ 2 - k2 ^ 2 + q ^ 2) (hy : q ≠ k2)
    (hs : s = Real.sqrt (q ^ 2 * (k1 ^ 2 - k2 ^ 2 + q ^ 2))) (ht : t = triLog (k1 * q) (q ^ 2 * (k1 ^ 2 - k2 ^ 2 + q ^ 2))) :
    -g2dColl0W3 (pw k1) (pw k2) (pw q) = 6209280 * k1 ^ 9 * k2 ^ 9 * q ^ 5 * ((-9 * q ^ 4 * (k1 * ((k2 - q) * (k2 + q)) ^ 2 / (7392 * k2 ^ 2 * q ^ 5))) * t) := by
  have hs0 : 0 < s := by rw [hs]; exact Real.sqrt_pos.mpr (by positivity)
  have hm : k1 ^ 2 - k2 ^ 2 + q ^ 2 ≠ 0 := hmu.ne'
  have d1 : k2 - q ≠ 0 := sub_ne_zero.mpr hy.symm
  have d2 : k2 + q ≠ 0 := by positivity
  have e : g2dColl0W3 (pw k1) (pw k2) (pw q) = 7560*k1 ^ 10*k2 ^ 7*q ^ 4*(k2 ^ 2 - q ^ 2)*(k2 ^ 2 - q ^ 2)*(s * t)/s := by
    simp only [g2dColl0W3, pw, pow_one, C01_power]
    rw [collLog k1 k2 q h1 h2 hq hmu hy, ← hs, ← ht]
  rw [e]
  field_simp
  ring

theorem g2dColl1W3_eq (k1 k2 q s t : ℝ) (h1 : 0 < k1) (h2 : 0 < k2) (hq : 0 < q) (hmu : 0 < k1 ^ 2 - k2 ^ 2 + q ^ 2) (hy : q ≠ k2)
    (hs : s = Real.sqrt (q ^ 2 * (k1 ^ 2 - k2 ^ 2 + q ^ 2))) (ht : t = triLog (k1 * q) (q ^ 2 * (k1 ^ 2 - k2 ^ 2 + q ^ 2))) :
    g2dColl1W3 (pw k1) (pw k2) (pw q) = 6209280 * k1 ^ 9 * k2 ^ 9 * q ^ 5 * k2 ^ 2 * (((7 * q ^ 2 * (k1 * ((k2 - q) * (k2 + q)) ^ 2 / (7392 * k2 ^ 2 * q ^ 5))) * t + (-9 * q ^ 4 * (k1 * ((k2 - q) * (k2 + q)) ^ 2 / (7392 * k2 ^ 2 * q ^ 5))) * collA ((k2 - q) * (k2 + q)) (k1 * q) (q ^ 2 * (k1 ^ 2 - k2 ^ 2 + q ^ 2)) q t)) := by
  have hs0 : 0 < s := by rw [hs]; exact Real.sqrt_pos.mpr (by positivity)
  have hm : k1 ^ 2 - k2 ^ 2 + q ^ 2 ≠ 0 := hmu.ne'
  have d1 : k2 - q ≠ 0 := sub_ne_zero.mpr hy.symm
  have d2 : k2 + q ≠ 0 := by positivity
  have e : g2dColl1W3 (pw k1) (pw k2) (pw q) = 420*k1 ^ 10*k2 ^ 9*q ^ 3*(k2 ^ 2 - q ^ 2)*(k2 ^ 2 - q ^ 2)*((-36)*k1*s + q*(14*k1 ^ 2 - 5*k2 ^ 2 + 5*q ^ 2)*(s * t))/(q ^ 2 * (k1 ^ 2 - k2 ^ 2 + q ^ 2) * s) := by
    simp only [g2dColl1W3, pw, pow_one, C01_power]
    rw [rpow_three_half _ (by positivity), collLog k1 k2 q h1 h2 hq hmu hy, ← hs, ← ht]
  rw [e]
  unfold collA
  field_simp
  ring

theorem g2dColl2W3_eq (k1 k2 q s t : ℝ) (h1 : 0 < k1) (h2 : 0 < k2) (hq : 0 < q) (hmu : 0 < k1 ^ 2 - k2 ^ 2 + q ^ 2) (hy : q ≠ k2)
    (hs : s = Real.sqrt (q ^ 2 * (k1 ^ 2 - k2 ^ 2 + q ^ 2))) (ht : t = triLog (k1 * q) (q ^ 2 * (k1 ^ 2 - k2 ^ 2 + q ^ 2))) :
    g2dColl2W3 (pw k1) (pw k2) (pw q) = 6209280 * k1 ^ 9 * k2 ^ 9 * q ^ 5 * k2 ^ 4 * (((2 * (k1 * ((k2 - q) * (k2 + q)) ^ 2 / (7392 * k2 ^ 2 * q ^ 5))) * t + (7 * q ^ 2 * (k1 * ((k2 - q) * (k2 + q)) ^ 2 / (7392 * k2 ^ 2 * q ^ 5))) * collA ((k2 - q) * (k2 + q)) (k1 * q) (q ^ 2 * (k1 ^ 2 - k2 ^ 2 + q ^ 2)) q t + (-9 * q ^ 4 * (k1 * ((k2 - q) * (k2 + q)) ^ 2 / (7392 * k2 ^ 2 * q ^ 5))) * collB ((k2 - q) * (k2 + q)) (k1 * q) (q ^ 2 * (k1 ^ 2 - k2 ^ 2 + q ^ 2)) q t)) := by
  have hs0 : 0 < s := by rw [hs]; exact Real.sqrt_pos.mpr (by positivity)
  have hm : k1 ^ 2 - k2 ^ 2 + q ^ 2 ≠ 0 := hmu.ne'
  have d1 : k2 - q ≠ 0 := sub_ne_zero.mpr hy.symm
  have d2 : k2 + q ≠ 0 := by positivity
  have e : g2dColl2W3 (pw k1) (pw k2) (pw q) = 105*k1 ^ 10*k2 ^ 11*q*((k2 ^ 2 - q ^ 2) ^ 6)*s*((-4)*k1*s*((-10)*k1 ^ 2 + 17*(-k2 ^ 2 + q ^ 2)) + q*(16*k1 ^ 4 - 60*k1 ^ 2*(k2 ^ 2 - q ^ 2) + 17*(k2 ^ 2 - q ^ 2)*(k2 ^ 2 - q ^ 2))*(s * t))/((k1 ^ 2 - k2 ^ 2 + q ^ 2) ^ 3*((-(k2 ^ 2*q) + q ^ 3) ^ 4)) := by
    simp only [g2dColl2W3, pw, pow_one, C01_power]
    rw [collLog k1 k2 q h1 h2 hq hmu hy, ← hs, ← ht]
  have hss : s * s = q ^ 2 * (k1 ^ 2 - k2 ^ 2 + q ^ 2) := by rw [hs]; exact Real.mul_self_sqrt (by positivity)
  have e2 : 105*k1 ^ 10*k2 ^ 11*q*((k2 ^ 2 - q ^ 2) ^ 6)*s*((-4)*k1*s*((-10)*k1 ^ 2 + 17*(-k2 ^ 2 + q ^ 2)) + q*(16*k1 ^ 4 - 60*k1 ^ 2*(k2 ^ 2 - q ^ 2) + 17*(k2 ^ 2 - q ^ 2)*(k2 ^ 2 - q ^ 2))*(s * t)) = 105*k1 ^ 10*k2 ^ 11*q*((k2 ^ 2 - q ^ 2) ^ 6)*(q ^ 2 * (k1 ^ 2 - k2 ^ 2 + q ^ 2))*((-4)*k1*((-10)*k1 ^ 2 + 17*(-k2 ^ 2 + q ^ 2)) + q*(16*k1 ^ 4 - 60*k1 ^ 2*(k2 ^ 2 - q ^ 2) + 17*(k2 ^ 2 - q ^ 2)*(k2 ^ 2 - q ^ 2))*t) := by
    linear_combination (105*k1 ^ 10*k2 ^ 11*q*((k2 ^ 2 - q ^ 2) ^ 6)*((-4)*k1*((-10)*k1 ^ 2 + 17*(-k2 ^ 2 + q ^ 2)) + q*(16*k1 ^ 4 - 60*k1 ^ 2*(k2 ^ 2 - q ^ 2) + 17*(k2 ^ 2 - q ^ 2)*(k2 ^ 2 - q ^ 2))*t)) * hss
  rw [e, e2, show -(k2 ^ 2*q) + q ^ 3 = -(q * ((k2 - q) * (k2 + q))) from by ring]
  unfold collA collB
  field_simp
  ring

theorem g2dColl0W2_eq (k1 k2 q s t : ℝ) (h1 : 0 < k1) (h2 : 0 < k2) (hq : 0 < q) (hmu : 0 < -k1 ^ 2 + k2 ^ 2 + q ^ 2) (hy : q ≠ k1)
    (hs : s = Real.sqrt (q ^ 2 * (-k1 ^ 2 + k2 ^ 2 + q ^ 2))) (ht : t = triLog (k2 * q) (q ^ 2 * (-k1 ^ 2 + k2 ^ 2 + q ^ 2))) :
    -g2dColl0W2 (pw k1) (pw k2) (pw q) = 6209280 * k1 ^ 9 * k2 ^ 9 * q ^ 5 * ((-9 * q ^ 4 * (k2 * ((k1 - q) * (k1 + q)) ^ 2 / (7392 * k1 ^ 2 * q ^ 5))) * t) := by
  have hs0 : 0 < s := by rw [hs]; exact Real.sqrt_pos.mpr (by positivity)
  have hm : -k1 ^ 2 + k2 ^ 2 + q ^ 2 ≠ 0 := hmu.ne'
  have d1 : k1 - q ≠ 0 := sub_ne_zero.mpr hy.symm
  have d2 : k1 + q ≠ 0 := by positivity
  have e : g2dColl0W2 (pw k1) (pw k2) (pw q) = 7560*k1 ^ 7*k2 ^ 10*q ^ 4*(k1 ^ 2 - q ^ 2)*(k1 ^ 2 - q ^ 2)*(s * t)/s := by
    simp only [g2dColl0W2, pw, pow_one, C01_power]
    rw [collLog' k1 k2 q h1 h2 hq hmu hy, ← hs, ← ht]
  rw [e]
  field_simp
  ring

theorem g2dColl1W2_eq (k1 k2 q s t : ℝ) (h1 : 0 < k1) (h2 : 0 < k2) (hq : 0 < q) (hmu : 0 < -k1 ^ 2 + k2 ^ 2 + q ^ 2) (hy : q ≠ k1)
    (hs : s = Real.sqrt (q ^ 2 * (-k1 ^ 2 + k2 ^ 2 + q ^ 2))) (ht : t = triLog (k2 * q) (q ^ 2 * (-k1 ^ 2 + k2 ^ 2 + q ^ 2))) :
    -g2dColl1W2 (pw k1) (pw k2) (pw q) = 6209280 * k1 ^ 9 * k2 ^ 9 * q ^ 5 * k2 ^ 2 * (((7 * q ^ 2 * (k2 * ((k1 - q) * (k1 + q)) ^ 2 / (7392 * k1 ^ 2 * q ^ 5))) * t + (-9 * q ^ 4 * (k2 * ((k1 - q) * (k1 + q)) ^ 2 / (7392 * k1 ^ 2 * q ^ 5))) * collA ((k1 - q) * (k1 + q)) (k2 * q) (q ^ 2 * (-k1 ^ 2 + k2 ^ 2 + q ^ 2)) q t)) := by
  have hs0 : 0 < s := by rw [hs]; exact Real.sqrt_pos.mpr (by positivity)
  have hm : -k1 ^ 2 + k2 ^ 2 + q ^ 2 ≠ 0 := hmu.ne'
  have d1 : k1 - q ≠ 0 := sub_ne_zero.mpr hy.symm
  have d2 : k1 + q ≠ 0 := by positivity
  have e : g2dColl1W2 (pw k1) (pw k2) (pw q) = 420*k1 ^ 7*k2 ^ 12*q ^ 3*(k1 ^ 2 - q ^ 2)*(k1 ^ 2 - q ^ 2)*(36*k2*s + q*(5*k1 ^ 2 - 14*k2 ^ 2 - 5*q ^ 2)*(s * t))/(q ^ 2 * (-k1 ^ 2 + k2 ^ 2 + q ^ 2) * s) := by
    simp only [g2dColl1W2, pw, pow_one, C01_power]
    rw [rpow_three_half _ (by positivity), collLog' k1 k2 q h1 h2 hq hmu hy, ← hs, ← ht]
  rw [e]
  unfold collA
  field_simp
  ring

theorem g2dColl2W2_eq (k1 k2 q s t : ℝ) (h1 : 0 < k1) (h2 : 0 < k2) (hq : 0 < q) (hmu : 0 < -k1 ^ 2 + k2 ^ 2 + q ^ 2) (hy : q ≠ k1)
    (hs : s = Real.sqrt (q ^ 2 * (-k1 ^ 2 + k2 ^ 2 + q ^ 2))) (ht : t = triLog (k2 * q) (q ^ 2 * (-k1 ^ 2 + k2 ^ 2 + q ^ 2))) :
    g2dColl2W2 (pw k1) (pw k2) (pw q) = 6209280 * k1 ^ 9 * k2 ^ 9 * q ^ 5 * k2 ^ 4 * (((2 * (k2 * ((k1 - q) * (k1 + q)) ^ 2 / (7392 * k1 ^ 2 * q ^ 5))) * t + (7 * q ^ 2 * (k2 * ((k1 - q) * (k1 + q)) ^ 2 / (7392 * k1 ^ 2 * q ^ 5))) * collA ((k1 - q) * (k1 + q)) (k2 * q) (q ^ 2 * (-k1 ^ 2 + k2 ^ 2 + q ^ 2)) q t + (-9 * q ^ 4 * (k2 * ((k1 - q) * (k1 + q)) ^ 2 / (7392 * k1 ^ 2 * q ^ 5))) * collB ((k1 - q) * (k1 + q)) (k2 * q) (q ^ 2 * (-k1 ^ 2 + k2 ^ 2 + q ^ 2)) q t)) := by
  have hs0 : 0 < s := by rw [hs]; exact Real.sqrt_pos.mpr (by positivity)
  have hm : -k1 ^ 2 + k2 ^ 2 + q ^ 2 ≠ 0 := hmu.ne'
  have d1 : k1 - q ≠ 0 := sub_ne_zero.mpr hy.symm
  have d2 : k1 + q ≠ 0 := by positivity
  have e : g2dColl2W2 (pw k1) (pw k2) (pw q) = 105*k1 ^ 7*k2 ^ 14*q*((k1 ^ 2 - q ^ 2) ^ 6)*s*((-4)*k2*s*((-17)*k1 ^ 2 - 10*k2 ^ 2 + 17*q ^ 2) + q*(17*k1 ^ 4 + 16*k2 ^ 4 + 60*k2 ^ 2*q ^ 2 + 17*q ^ 4 - 2*k1 ^ 2*(30*k2 ^ 2 + 17*q ^ 2))*(s * t))/((-k1 ^ 2 + k2 ^ 2 + q ^ 2) ^ 3*((-(k1 ^ 2*q) + q ^ 3) ^ 4)) := by
    simp only [g2dColl2W2, pw, pow_one, C01_power]
    rw [collLog' k1 k2 q h1 h2 hq hmu hy, ← hs, ← ht]
  have hss : s * s = q ^ 2 * (-k1 ^ 2 + k2 ^ 2 + q ^ 2) := by rw [hs]; exact Real.mul_self_sqrt (by positivity)
  have e2 : 105*k1 ^ 7*k2 ^ 14*q*((k1 ^ 2 - q ^ 2) ^ 6)*s*((-4)*k2*s*((-17)*k1 ^ 2 - 10*k2 ^ 2 + 17*q ^ 2) + q*(17*k1 ^ 4 + 16*k2 ^ 4 + 60*k2 ^ 2*q ^ 2 + 17*q ^ 4 - 2*k1 ^ 2*(30*k2 ^ 2 + 17*q ^ 2))*(s * t)) = 105*k1 ^ 7*k2 ^ 14*q*((k1 ^ 2 - q ^ 2) ^ 6)*(q ^ 2 * (-k1 ^ 2 + k2 ^ 2 + q ^ 2))*((-4)*k2*((-17)*k1 ^ 2 - 10*k2 ^ 2 + 17*q ^ 2) + q*(17*k1 ^ 4 + 16*k2 ^ 4 + 60*k2 ^ 2*q ^ 2 + 17*q ^ 4 - 2*k1 ^ 2*(30*k2 ^ 2 + 17*q ^ 2))*t) := by
    linear_combination (105*k1 ^ 7*k2 ^ 14*q*((k1 ^ 2 - q ^ 2) ^ 6)*((-4)*k2*((-17)*k1 ^ 2 - 10*k2 ^ 2 + 17*q ^ 2) + q*(17*k1 ^ 4 + 16*k2 ^ 4 + 60*k2 ^ 2*q ^ 2 + 17*q ^ 4 - 2*k1 ^ 2*(30*k2 ^ 2 + 17*q ^ 2))*t)) * hss
  rw [e, e2, show -(k1 ^ 2*q) + q ^ 3 = -(q * ((k1 - q) * (k1 + q))) from by ring]
  unfold collA collB
  field_simp
  ring

/-- Part of the coefficient of `LFunc(k1,q)` beyond `kernel_gamma2d_coll`. -/
def g2dCollTA (k1 k2 k3 q : ℕ → ℝ) : ℝ :=
  ((-(151*k1 10)) + (33*k1 8)*q 2 + (642*k1 6)*q 4 + (-(614*k1 4))*q 6 + (-(75*k1 2))*q 8 + (165)*q 10)/(413952*k1 9*k2 2*q 5)

set_option maxHeartbeats 1000000 in
theorem g2dCollA_eq (k1 k2 k3 q : ℝ) (h1 : 0 < k1) (h2 : 0 < k2) (hq : 0 < q) :
    (-g2dColl0A (pw k1) (pw k2) (pw q) + (k3 / k2) ^ 2 * g2dColl1A (pw k1) (pw k2) (pw q) - (k3 / k2) ^ 4 * g2dColl2A (pw k1) (pw k2) (pw q)) / (6209280 * k1 ^ 9 * k2 ^ 9 * q ^ 5) =
    (g2dCL1 (pw k1) (pw k2) (pw k3) (pw q) - k3 ^ 6 * g2dCollTA (pw k1) (pw k2) (pw k3) (pw q)) * LFunc k1 q := by
  simp only [g2dColl0A, g2dColl1A, g2dColl2A, g2dCL1, g2dCollTA, LFunc, pw, pow_one, C01_power]
  generalize Real.log |(k1 + q) / (k1 - q)| = l
  field_simp
  ring

/-- Part of the coefficient of `LFunc(k2,q)` beyond `kernel_gamma2d_coll`. -/
def g2dCollTB (k1 k2 k3 q : ℕ → ℝ) : ℝ :=
  ((-(151*k2 10)) + (33*k2 8)*q 2 + (642*k2 6)*q 4 + (-(614*k2 4))*q 6 + (-(75*k2 2))*q 8 + (165)*q 10)/(413952*k1 2*k2 9*q 5)

set_option maxHeartbeats 1000000 in
theorem g2dCollB_eq (k1 k2 k3 q : ℝ) (h1 : 0 < k1) (h2 : 0 < k2) (hq : 0 < q) :
    (-g2dColl0B (pw k1) (pw k2) (pw q) + (k3 / k2) ^ 2 * g2dColl1B (pw k1) (pw k2) (pw q) - (k3 / k2) ^ 4 * g2dColl2B (pw k1) (pw k2) (pw q)) / (6209280 * k1 ^ 9 * k2 ^ 9 * q ^ 5) =
    (g2dCL2 (pw k1) (pw k2) (pw k3) (pw q) - k3 ^ 6 * g2dCollTB (pw k1) (pw k2) (pw k3) (pw q)) * LFunc k2 q := by
  simp only [g2dColl0B, g2dColl1B, g2dColl2B, g2dCL2, g2dCollTB, LFunc, pw, pow_one, C01_power]
  generalize Real.log |(k2 + q) / (k2 - q)| = l
  field_simp
  ring

/-- Rational part of the exact kernel beyond `kernel_gamma2d_coll`. -/
def g2dCollTP (k1 k2 k3 q : ℕ → ℝ) : ℝ :=
  ((70*k1 12*k2 6*k3 6 - 630*k1 10*k2 8*k3 6 + 1120*k1 10*k2 6*k3 8 - 630*k1 8*k2 10*k3 6 - 2240*k1 8*k2 8*k3 8 - 1050*k1 8*k2 6*k3 10 +
    70*k1 6*k2 12*k3 6 + 1120*k1 6*k2 10*k3 8 - 1050*k1 6*k2 8*k3 10 - 140*k1 6*k2 6*k3 12) + (475*k1 12*k2 6*k3 4 - 3155*k1 10*k2 8*k3 4 +
    1440*k1 10*k2 6*k3 6 - 3155*k1 8*k2 10*k3 4 - 1200*k1 8*k2 8*k3 6 - 1805*k1 8*k2 6*k3 8 + 475*k1 6*k2 12*k3 4 + 1440*k1 6*k2 10*k3 6 -
    1805*k1 6*k2 8*k3 8 - 670*k1 6*k2 6*k3 10)*q 2 + (586*k1 12*k2 6*k3 2 - 1594*k1 10*k2 8*k3 2 - 13104*k1 10*k2 6*k3 4 - 1594*k1 8*k2
    10*k3 2 + 34808*k1 8*k2 8*k3 4 + 10230*k1 8*k2 6*k3 6 + 586*k1 6*k2 12*k3 2 - 13104*k1 6*k2 10*k3 4 + 10230*k1 6*k2 8*k3 6 - 392*k1 6*k2
    6*k3 8)*q 4 + (-(507*k1 12*k2 6) - 1461*k1 10*k2 8 + 13460*k1 10*k2 6*k3 2 - 1461*k1 8*k2 10 - 21216*k1 8*k2 8*k3 2 - 13079*k1 8*k2 6*k3
    4 - 507*k1 6*k2 12 + 13460*k1 6*k2 10*k3 2 - 13079*k1 6*k2 8*k3 4 - 882*k1 6*k2 6*k3 6)*q 6 + (1524*k1 10*k2 6 + 3864*k1 8*k2 8 -
    3896*k1 8*k2 6*k3 2 + 1524*k1 6*k2 10 - 3896*k1 6*k2 8*k3 2 - 508*k1 6*k2 6*k3 4)*q 8 + (23499*k1 8*k2 6 + 23499*k1 6*k2 8 - 1248*k1
    6*k2 6*k3 2)*q 10 + (-(201672*k1 6*k2 6))*q 12 + (27270*k1 6*k2 4 + 27270*k1 4*k2 6)*q 14 + (900*k1 6*k2 2 + 900*k1 2*k2 6)*q 16 +
    (-(7425*k1 6) - 7425*k2 6)*q 18)/(4656960*k1 8*k2 8*q 14)

set_option maxHeartbeats 2000000 in
theorem g2dCollP_eq (k1 k2 k3 q : ℝ) (h1 : 0 < k1) (h2 : 0 < k2) (h3 : 0 < k3) (hq : 0 < q) (n1 : q ≠ k1) (n2 : q ≠ k2) :
    (g2dColl0P (pw k1) (pw k2) (pw q) + (k3 / k2) ^ 2 * g2dColl1P (pw k1) (pw k2) (pw q) + (k3 / k2) ^ 4 * g2dColl2P (pw k1) (pw k2) (pw q)) /
      (6209280 * k1 ^ 9 * k2 ^ 9 * q ^ 5) =
    g2dC0 (pw k1) (pw k2) (pw k3) (pw q) + g2dCL3 (pw k1) (pw k2) (pw k3) (pw q) * (4 * artSum 5 (k3 / q)) +
      g2dCW1 (pw k1) (pw k2) (pw k3) (pw q) * (4 * (k3 * q) / ((k1 ^ 2 - q ^ 2) * (k2 ^ 2 - q ^ 2))) - k3 ^ 6 * g2dCollTP (pw k1) (pw k2) (pw k3) (pw q) := by
  have d1 : k1 ^ 2 - q ^ 2 ≠ 0 := by
    rw [show k1 ^ 2 - q ^ 2 = (k1 - q) * (k1 + q) from by ring]; exact mul_ne_zero (sub_ne_zero.mpr n1.symm) (by positivity)
  have d2 : k2 ^ 2 - q ^ 2 ≠ 0 := by
    rw [show k2 ^ 2 - q ^ 2 = (k2 - q) * (k2 + q) from by ring]; exact mul_ne_zero (sub_ne_zero.mpr n2.symm) (by positivity)
  have e1 : g2dCW1 (pw k1) (pw k2) (pw k3) (pw q) * (4 * (k3 * q) / ((k1 ^ 2 - q ^ 2) * (k2 ^ 2 - q ^ 2))) =
      (12 / 4312) * k3 ^ 4 * (k1 ^ 2 - q ^ 2) * (k2 ^ 2 - q ^ 2) / (k1 ^ 2 * k2 ^ 2 * q ^ 4) := by
    simp only [g2dCW1, pw, pow_one]
    field_simp
    ring
  rw [e1]
  simp only [artSum, Finset.sum_range_succ, Finset.sum_range_zero]
  push_cast
  simp only [g2dColl0P, g2dColl1P, g2dColl2P, g2dC0, g2dCL3, g2dCollTP, pw, pow_one, C01_power]
  field_simp
  ring

theorem g2dCW2_coll (k1 k2 k3 q : ℝ) (h1 : 0 < k1) (h2 : 0 < k2) (hq : 0 < q) :
    g2dCW2 (pw k1) (pw k2) (pw k3) (pw q) = k2 * ((k1 - q) * (k1 + q)) ^ 2 / (7392 * k1 ^ 2 * q ^ 5) * (2 * k3 ^ 4 + 7 * q ^ 2 * k3 ^ 2 + -9 * q ^ 4) := by
  simp only [g2dCW2, pw, pow_one]
  field_simp
  ring

theorem g2dCW3_coll (k1 k2 k3 q : ℝ) (h1 : 0 < k1) (h2 : 0 < k2) (hq : 0 < q) :
    g2dCW3 (pw k1) (pw k2) (pw k3) (pw q) = k1 * ((k2 - q) * (k2 + q)) ^ 2 / (7392 * k2 ^ 2 * q ^ 5) * (2 * k3 ^ 4 + 7 * q ^ 2 * k3 ^ 2 + -9 * q ^ 4) := by
  simp only [g2dCW3, pw, pow_one]
  field_simp
  ring

/-- What the expanded exact kernel has beyond `kernel_gamma2d_coll`, without the factor `k3^6`. -/
def g2dCollT (k1 k2 k3 q : ℝ) : ℝ :=
  g2dCollTP (pw k1) (pw k2) (pw k3) (pw q) + g2dCollTA (pw k1) (pw k2) (pw k3) (pw q) * LFunc k1 q + g2dCollTB (pw k1) (pw k2) (pw k3) (pw q) * LFunc k2 q +
    k2 * ((k1 - q) * (k1 + q)) ^ 2 / (7392 * k1 ^ 2 * q ^ 5) * (
      2 * collA ((k1 - q) * (k1 + q)) (k2 * q) (q ^ 2 * (-k1 ^ 2 + k2 ^ 2 + q ^ 2)) q (triLog (k2 * q) (q ^ 2 * (-k1 ^ 2 + k2 ^ 2 + q ^ 2))) +
      (7 * q ^ 2 + 2 * k3 ^ 2) * collB ((k1 - q) * (k1 + q)) (k2 * q) (q ^ 2 * (-k1 ^ 2 + k2 ^ 2 + q ^ 2)) q (triLog (k2 * q) (q ^ 2 * (-k1 ^ 2 + k2 ^ 2 + q ^ 2)))) +
    k1 * ((k2 - q) * (k2 + q)) ^ 2 / (7392 * k2 ^ 2 * q ^ 5) * (
      2 * collA ((k2 - q) * (k2 + q)) (k1 * q) (q ^ 2 * (k1 ^ 2 - k2 ^ 2 + q ^ 2)) q (triLog (k1 * q) (q ^ 2 * (k1 ^ 2 - k2 ^ 2 + q ^ 2))) +
      (7 * q ^ 2 + 2 * k3 ^ 2) * collB ((k2 - q) * (k2 + q)) (k1 * q) (q ^ 2 * (k1 ^ 2 - k2 ^ 2 + q ^ 2)) q (triLog (k1 * q) (q ^ 2 * (k1 ^ 2 - k2 ^ 2 + q ^ 2))))

set_option maxHeartbeats 1000000 in
theorem g2d_coll_identity (k1 k2 k3 q : ℝ) (h1 : 0 < k1) (h2 : 0 < k2) (h3 : 0 < k3) (hq : 0 < q) (n1 : q ≠ k1) (n2 : q ≠ k2)
    (m2 : 0 < -k1 ^ 2 + k2 ^ 2 + q ^ 2) (m3 : 0 < k1 ^ 2 - k2 ^ 2 + q ^ 2) :
    π * (g2dC0 (pw k1) (pw k2) (pw k3) (pw q) + g2dCL1 (pw k1) (pw k2) (pw k3) (pw q) * LFunc k1 q + g2dCL2 (pw k1) (pw k2) (pw k3) (pw q) * LFunc k2 q + g2dCL3 (pw k1) (pw k2) (pw k3) (pw q) * (4 * artSum 5 (k3 / q)) +
      g2dCW1 (pw k1) (pw k2) (pw k3) (pw q) * (4 * (k3 * q) / ((k1 ^ 2 - q ^ 2) * (k2 ^ 2 - q ^ 2))) +
      g2dCW2 (pw k1) (pw k2) (pw k3) (pw q) * collW ((k1 - q) * (k1 + q)) (k2 * q) (q ^ 2 * (-k1 ^ 2 + k2 ^ 2 + q ^ 2)) q k3 +
      g2dCW3 (pw k1) (pw k2) (pw k3) (pw q) * collW ((k2 - q) * (k2 + q)) (k1 * q) (q ^ 2 * (k1 ^ 2 - k2 ^ 2 + q ^ 2)) q k3) - g2dColl k1 k2 k3 q =
    π * (k3 ^ 6 * g2dCollT k1 k2 k3 q) := by
  have a0 := g2dCollA_eq k1 k2 k3 q h1 h2 hq
  have b0 := g2dCollB_eq k1 k2 k3 q h1 h2 hq
  have p0 := g2dCollP_eq k1 k2 k3 q h1 h2 h3 hq n1 n2
  have w20 := g2dColl0W2_eq k1 k2 q _ _ h1 h2 hq m2 n1 rfl rfl
  have w21 := g2dColl1W2_eq k1 k2 q _ _ h1 h2 hq m2 n1 rfl rfl
  have w22 := g2dColl2W2_eq k1 k2 q _ _ h1 h2 hq m2 n1 rfl rfl
  have w30 := g2dColl0W3_eq k1 k2 q _ _ h1 h2 hq m3 n2 rfl rfl
  have w31 := g2dColl1W3_eq k1 k2 q _ _ h1 h2 hq m3 n2 rfl rfl
  have w32 := g2dColl2W3_eq k1 k2 q _ _ h1 h2 hq m3 n2 rfl rfl
  rw [g2dCW2_coll k1 k2 k3 q h1 h2 hq, g2dCW3_coll k1 k2 k3 q h1 h2 hq]
  rw [g2dColl, g2dColl0_split, g2dColl1_split, g2dColl2_split, g2dCollT]
  unfold collW
  have v20 := congrArg (fun z => z / (6209280 * k1 ^ 9 * k2 ^ 9 * q ^ 5)) w20
  have f20 (z : ℝ) : (6209280 * k1 ^ 9 * k2 ^ 9 * q ^ 5 * z) / (6209280 * k1 ^ 9 * k2 ^ 9 * q ^ 5) = z := by
    field_simp
  simp only [f20] at v20
  have v21 := congrArg (fun z => (k3 / k2) ^ 2 * z / (6209280 * k1 ^ 9 * k2 ^ 9 * q ^ 5)) w21
  have f21 (z : ℝ) : (k3 / k2) ^ 2 * (6209280 * k1 ^ 9 * k2 ^ 9 * q ^ 5 * k2 ^ 2 * z) / (6209280 * k1 ^ 9 * k2 ^ 9 * q ^ 5) = k3 ^ 2 * z := by
    field_simp
  simp only [f21] at v21
  have v22 := congrArg (fun z => (k3 / k2) ^ 4 * z / (6209280 * k1 ^ 9 * k2 ^ 9 * q ^ 5)) w22
  have f22 (z : ℝ) : (k3 / k2) ^ 4 * (6209280 * k1 ^ 9 * k2 ^ 9 * q ^ 5 * k2 ^ 4 * z) / (6209280 * k1 ^ 9 * k2 ^ 9 * q ^ 5) = k3 ^ 4 * z := by
    field_simp
  simp only [f22] at v22
  have v30 := congrArg (fun z => z / (6209280 * k1 ^ 9 * k2 ^ 9 * q ^ 5)) w30
  have f30 (z : ℝ) : (6209280 * k1 ^ 9 * k2 ^ 9 * q ^ 5 * z) / (6209280 * k1 ^ 9 * k2 ^ 9 * q ^ 5) = z := by
    field_simp
  simp only [f30] at v30
  have v31 := congrArg (fun z => (k3 / k2) ^ 2 * z / (6209280 * k1 ^ 9 * k2 ^ 9 * q ^ 5)) w31
  have f31 (z : ℝ) : (k3 / k2) ^ 2 * (6209280 * k1 ^ 9 * k2 ^ 9 * q ^ 5 * k2 ^ 2 * z) / (6209280 * k1 ^ 9 * k2 ^ 9 * q ^ 5) = k3 ^ 2 * z := by
    field_simp
  simp only [f31] at v31
  have v32 := congrArg (fun z => (k3 / k2) ^ 4 * z / (6209280 * k1 ^ 9 * k2 ^ 9 * q ^ 5)) w32
  have f32 (z : ℝ) : (k3 / k2) ^ 4 * (6209280 * k1 ^ 9 * k2 ^ 9 * q ^ 5 * k2 ^ 4 * z) / (6209280 * k1 ^ 9 * k2 ^ 9 * q ^ 5) = k3 ^ 4 * z := by
    field_simp
  simp only [f32] at v32
  simp only [show ∀ x n, pw x n = x ^ n from fun _ _ => rfl, show (6.20928e6 : ℝ) = 6209280 from by norm_num]
  linear_combination (-π) * (a0 + b0 + p0 + v20 + v21 + v22 + v30 + v31 + v32)

/-- `g2dCL3` times `k3^5`. -/
def g2dCL3N (k1 k2 k3 q : ℕ → ℝ) : ℝ :=
  ((2*k1 6*k3 8 - 18*k1 4*k2 2*k3 8 + 32*k1 4*k3 10 - 18*k1 2*k2 4*k3 8 - 64*k1 2*k2 2*k3 10 - 30*k1 2*k3 12 + 2*k2 6*k3 8 + 32*k2 4*k3 10
    - 30*k2 2*k3 12 - 4*k3 14) + (11*k1 6*k3 6 - 67*k1 4*k2 2*k3 6 - 67*k1 2*k2 4*k3 6 + 48*k1 2*k2 2*k3 8 - 13*k1 2*k3 10 + 11*k2 6*k3 6 -
    13*k2 2*k3 10 - 14*k3 12)*q 2 + (-(k1 6*k3 4) + 73*k1 4*k2 2*k3 4 - 432*k1 4*k3 6 + 73*k1 2*k2 4*k3 4 + 1048*k1 2*k2 2*k3 6 + 363*k1
    2*k3 8 - k2 6*k3 4 - 432*k2 4*k3 6 + 363*k2 2*k3 8 + 14*k3 10)*q 4 + (-(39*k1 6*k3 2) + 39*k1 4*k2 2*k3 2 + 844*k1 4*k3 4 + 39*k1 2*k2
    4*k3 2 - 1848*k1 2*k2 2*k3 4 - 727*k1 2*k3 6 - 39*k2 6*k3 2 + 844*k2 4*k3 4 - 727*k2 2*k3 6 - 6*k3 8)*q 6 + (27*k1 6 - 27*k1 4*k2 2 -
    552*k1 4*k3 2 - 27*k1 2*k2 4 + 1032*k1 2*k2 2*k3 2 + 479*k1 2*k3 4 + 27*k2 6 - 552*k2 4*k3 2 + 479*k2 2*k3 4 + 46*k3 6)*q 8 + (108*k1 4
    - 216*k1 2*k2 2 - 72*k1 2*k3 2 + 108*k2 4 - 72*k2 2*k3 2 - 36*k3 4)*q 10)/(59136*k1 2*k2 2*q 5)

theorem g2dCL3N_eq (k1 k2 k3 q : ℝ) (h1 : 0 < k1) (h2 : 0 < k2) (h3 : 0 < k3) (hq : 0 < q) :
    g2dCL3 (pw k1) (pw k2) (pw k3) (pw q) * k3 ^ 11 = g2dCL3N (pw k1) (pw k2) (pw k3) (pw q) * k3 ^ 6 := by
  simp only [g2dCL3, g2dCL3N, pw, pow_one]
  field_simp

/-- `g2dCW1` divided by `k3^3`. -/
def g2dCW1N (k1 k2 q : ℝ) : ℝ := 3 * ((k1 ^ 2 - q ^ 2) * (k2 ^ 2 - q ^ 2)) ^ 2 / (4312 * k1 ^ 2 * k2 ^ 2 * q ^ 5)

theorem g2dCW1N_eq (k1 k2 k3 q : ℝ) (h1 : 0 < k1) (h2 : 0 < k2) (hq : 0 < q) :
    g2dCW1 (pw k1) (pw k2) (pw k3) (pw q) * k3 ^ 3 = g2dCW1N k1 k2 q * k3 ^ 6 := by
  simp only [g2dCW1, g2dCW1N, pw, pow_one]
  field_simp
  ring

set_option maxHeartbeats 1000000 in
theorem g2dCL3N_cont (a q : ℝ) (ha : 0 < a) (hq : 0 < q) :
    ContinuousAt (fun p : ℝ × ℝ × ℝ => g2dCL3N (pw p.1) (pw p.2.1) (pw p.2.2) (pw q)) (a, a, 0) := by
  simp only [g2dCL3N, pw]
  exact ContinuousAt.div (by fun_prop) (by fun_prop) (by simp only []; positivity)

set_option maxHeartbeats 1000000 in
theorem g2dCollTP_cont (a q : ℝ) (ha : 0 < a) (hq : 0 < q) :
    ContinuousAt (fun p : ℝ × ℝ × ℝ => g2dCollTP (pw p.1) (pw p.2.1) (pw p.2.2) (pw q)) (a, a, 0) := by
  simp only [g2dCollTP, pw]
  exact ContinuousAt.div (by fun_prop) (by fun_prop) (by simp only []; positivity)

set_option maxHeartbeats 1000000 in
theorem g2dCollTA_cont (a q : ℝ) (ha : 0 < a) (hq : 0 < q) :
    ContinuousAt (fun p : ℝ × ℝ × ℝ => g2dCollTA (pw p.1) (pw p.2.1) (pw p.2.2) (pw q)) (a, a, 0) := by
  simp only [g2dCollTA, pw]
  exact ContinuousAt.div (by fun_prop) (by fun_prop) (by simp only []; positivity)

set_option maxHeartbeats 1000000 in
theorem g2dCollTB_cont (a q : ℝ) (ha : 0 < a) (hq : 0 < q) :
    ContinuousAt (fun p : ℝ × ℝ × ℝ => g2dCollTB (pw p.1) (pw p.2.1) (pw p.2.2) (pw q)) (a, a, 0) := by
  simp only [g2dCollTB, pw]
  exact ContinuousAt.div (by fun_prop) (by fun_prop) (by simp only []; positivity)

set_option maxHeartbeats 1000000 in
theorem g2dCW2_cont (a q : ℝ) (ha : 0 < a) (hq : 0 < q) :
    ContinuousAt (fun p : ℝ × ℝ × ℝ => g2dCW2 (pw p.1) (pw p.2.1) (pw p.2.2) (pw q)) (a, a, 0) := by
  simp only [g2dCW2, pw]
  exact ContinuousAt.div (by fun_prop) (by fun_prop) (by simp only []; positivity)

set_option maxHeartbeats 1000000 in
theorem g2dCW3_cont (a q : ℝ) (ha : 0 < a) (hq : 0 < q) :
    ContinuousAt (fun p : ℝ × ℝ × ℝ => g2dCW3 (pw p.1) (pw p.2.1) (pw p.2.2) (pw q)) (a, a, 0) := by
  simp only [g2dCW3, pw]
  exact ContinuousAt.div (by fun_prop) (by fun_prop) (by simp only []; positivity)

theorem g2dCollT_cont (a q : ℝ) (ha : 0 < a) (hq : 0 < q) (n : q ≠ a) :
    ContinuousAt (fun p : ℝ × ℝ × ℝ => g2dCollT p.1 p.2.1 p.2.2 q) (a, a, 0) := by
  have c1 : ContinuousAt (fun p : ℝ × ℝ × ℝ => p.1) (a, a, 0) := by fun_prop
  have c2 : ContinuousAt (fun p : ℝ × ℝ × ℝ => p.2.1) (a, a, 0) := by fun_prop
  have c3 : ContinuousAt (fun p : ℝ × ℝ × ℝ => p.2.2) (a, a, 0) := by fun_prop
  obtain ⟨a2, b2⟩ := coll_cont a q (fun p => p.2.1) (fun p => p.1) ha hq n c2 c1 rfl rfl
    (fun p => q ^ 2 * (-p.1 ^ 2 + p.2.1 ^ 2 + q ^ 2)) (fun p => by ring)
  obtain ⟨a3, b3⟩ := coll_cont a q (fun p => p.1) (fun p => p.2.1) ha hq n c1 c2 rfl rfl
    (fun p => q ^ 2 * (p.1 ^ 2 - p.2.1 ^ 2 + q ^ 2)) (fun p => rfl)
  have l1 := cont_LFunc q _ _ c1 ha hq n
  have l2 := cont_LFunc q _ _ c2 ha hq n
  have w2 : ContinuousAt (fun p : ℝ × ℝ × ℝ => p.2.1 * ((p.1 - q) * (p.1 + q)) ^ 2 / (7392 * p.1 ^ 2 * q ^ 5)) (a, a, 0) :=
    ContinuousAt.div (by fun_prop) (by fun_prop) (by simp only []; positivity)
  have w3 : ContinuousAt (fun p : ℝ × ℝ × ℝ => p.1 * ((p.2.1 - q) * (p.2.1 + q)) ^ 2 / (7392 * p.2.1 ^ 2 * q ^ 5)) (a, a, 0) :=
    ContinuousAt.div (by fun_prop) (by fun_prop) (by simp only []; positivity)
  have e : ContinuousAt (fun p : ℝ × ℝ × ℝ => (7 * q ^ 2 + 2 * p.2.2 ^ 2 : ℝ)) (a, a, 0) := by fun_prop
  unfold g2dCollT
  exact ((((g2dCollTP_cont a q ha hq).add ((g2dCollTA_cont a q ha hq).mul l1)).add ((g2dCollTB_cont a q ha hq).mul l2)).add
    (w2.mul ((a2.const_mul 2).add (e.mul b2)))).add (w3.mul ((a3.const_mul 2).add (e.mul b3)))

/-- **As one side goes to zero**, the exact kernel differs from the one used by the code at order `k3^6`. -/
theorem g2d_coll (a q : ℝ) (ha : 0 < a) (hq : 0 < q) (n : q ≠ a) :
    (fun p : ℝ × ℝ × ℝ => g2dExact p.1 p.2.1 p.2.2 q - g2dColl p.1 p.2.1 p.2.2 q) =O[collF a] fun p => p.2.2 ^ 6 := by
  have c1 : ContinuousAt (fun p : ℝ × ℝ × ℝ => p.1) (a, a, 0) := by fun_prop
  have c2 : ContinuousAt (fun p : ℝ × ℝ × ℝ => p.2.1) (a, a, 0) := by fun_prop
  have c3 : ContinuousAt (fun p : ℝ × ℝ × ℝ => p.2.2) (a, a, 0) := by fun_prop
  have r0 := coll_L3 a q hq
  have r1 := coll_W1 a q ha hq n
  have r2 := coll_W a q (fun p => p.2.1) (fun p => p.1) ha hq n c2 c1 rfl rfl
    (fun p => q ^ 2 * (-p.1 ^ 2 + p.2.1 ^ 2 + q ^ 2)) (fun p => by ring)
  have r3 := coll_W a q (fun p => p.1) (fun p => p.2.1) ha hq n c1 c2 rfl rfl
    (fun p => q ^ 2 * (p.1 ^ 2 - p.2.1 ^ 2 + q ^ 2)) (fun p => rfl)
  have cw1 : ContinuousAt (fun p : ℝ × ℝ × ℝ => g2dCW1N p.1 p.2.1 q) (a, a, 0) := by
    unfold g2dCW1N
    exact ContinuousAt.div (by fun_prop) (by fun_prop) (by simp only []; positivity)
  have k6 := isBigO_refl (fun p : ℝ × ℝ × ℝ => p.2.2 ^ 6) (collF a)
  have s0 := (collF_one (g2dCL3N_cont a q ha hq)).mul k6
  have s1 := (collF_one cw1).mul k6
  have s2 := (collF_one (g2dCW2_cont a q ha hq)).mul r2
  have s3 := (collF_one (g2dCW3_cont a q ha hq)).mul r3
  have s4 := (collF_one (g2dCollT_cont a q ha hq n)).mul k6
  simp only [one_mul] at s0 s1 s2 s3 s4
  have t0 : (fun p : ℝ × ℝ × ℝ => g2dCL3 (pw p.1) (pw p.2.1) (pw p.2.2) (pw q) * (LFunc p.2.2 q - 4 * artSum 5 (p.2.2 / q))) =O[collF a] fun p => p.2.2 ^ 6 := by
    refine ((isBigO_refl _ _).mul r0).trans (s0.congr' ?_ EventuallyEq.rfl)
    filter_upwards [collF_tri a] with p ht
    exact (g2dCL3N_eq _ _ _ _ ht.pos1 ht.pos2 ht.pos3 hq).symm
  have t1 : (fun p : ℝ × ℝ × ℝ => g2dCW1 (pw p.1) (pw p.2.1) (pw p.2.2) (pw q) * (triLog (p.2.2 * q) (triM p.1 p.2.1 p.2.2 q) -
      4 * (p.2.2 * q) / ((p.1 ^ 2 - q ^ 2) * (p.2.1 ^ 2 - q ^ 2)))) =O[collF a] fun p => p.2.2 ^ 6 := by
    refine ((isBigO_refl _ _).mul r1).trans (s1.congr' ?_ EventuallyEq.rfl)
    filter_upwards [collF_tri a] with p ht
    exact (g2dCW1N_eq _ _ _ _ ht.pos1 ht.pos2 hq).symm
  refine (((((t0.add t1).add s2).add s3).add s4).const_mul_left π).congr' ?_ EventuallyEq.rfl
  have e1 : ∀ᶠ p in collF a, p.1 ≠ q := collF_ev (c1.eventually_ne n.symm)
  have e2 : ∀ᶠ p in collF a, p.2.1 ≠ q := collF_ev (c2.eventually_ne n.symm)
  have e3 : ∀ᶠ p in collF a, p.2.2 ≠ q := collF_ev (c3.eventually_ne hq.ne)
  have m2 : ∀ᶠ p in collF a, 0 < -p.1 ^ 2 + p.2.1 ^ 2 + q ^ 2 :=
    collF_ev ((show ContinuousAt (fun p : ℝ × ℝ × ℝ => -p.1 ^ 2 + p.2.1 ^ 2 + q ^ 2) (a, a, 0) by fun_prop).eventually
      (lt_mem_nhds (show 0 < -a ^ 2 + a ^ 2 + q ^ 2 by rw [neg_add_cancel, zero_add]; positivity)))
  have m3 : ∀ᶠ p in collF a, 0 < p.1 ^ 2 - p.2.1 ^ 2 + q ^ 2 :=
    collF_ev ((show ContinuousAt (fun p : ℝ × ℝ × ℝ => p.1 ^ 2 - p.2.1 ^ 2 + q ^ 2) (a, a, 0) by fun_prop).eventually
      (lt_mem_nhds (show 0 < a ^ 2 - a ^ 2 + q ^ 2 by rw [sub_self, zero_add]; positivity)))
  filter_upwards [collF_tri a, e1, e2, e3, m2, m3] with p ht n1 n2 n3 hm2 hm3
  have hI := g2d_coll_identity p.1 p.2.1 p.2.2 q ht.pos1 ht.pos2 ht.pos3 hq n1.symm n2.symm hm2 hm3
  rw [g2dExact_form p.1 p.2.1 p.2.2 q ht hq n1.symm n2.symm n3.symm]
  linear_combination -hI

end

end Verif
