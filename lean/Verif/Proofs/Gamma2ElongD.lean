import Verif.Proofs.TriElong

/-!
# The second-order loop kernel of the density for a short second side

Pieces and remainders found by `tools/g2limits` and checked here.
-/

set_option linter.unusedSimpArgs false
set_option linter.unusedVariables false

namespace Verif

noncomputable section

open Real Asymptotics Filter Topology

/-- The polynomials of the constant part of `kernel_gamma2d_elongate` (`src/gamma2d_1loop.c:260-365`). -/
def g2dElong0P (k k3 q : ℕ → ℝ) : ℝ :=
  4*k 16*q 1*(42100*k 6 + 13841*k3 6 - 10132*k3 4*q 2 - 405090*k3 2*q 4 - 139020*q 6 - 3*k 4*(13429*k3 2 + 512318*q 2) + k 2*(54346*k3 4 +
    144594*k3 2*q 2 - 2024631*q 4))/7 - 4*k 10*q 1*(1350*k 12*k3 4 - 7425*k3 8*q 8 - 15*k 10*(1501*k3 6 + 1318*k3 4*q 2 - 210*k3 2*q 4 +
    189*q 6) - 2*k 8*(7050*k3 8 - 227830*k3 6*q 2 + 370461*k3 4*q 4 - 50400*k3 2*q 6 + 11340*q 8) + k 6*((-5415)*k3 10 + 120370*k3 8*q 2 -
    250234*k3 6*q 4 + 148950*k3 4*q 6 - 7560*k3 2*q 8) - 15*k 4*(2595*k3 8*q 4 - 6566*k3 6*q 6 + 471*k3 4*q 8) + 135*k 2*(221*k3 8*q 6 -
    146*k3 6*q 8))/k3 4

/-- The polynomials of the part divided by `eps²` of `kernel_gamma2d_elongate` (`src/gamma2d_1loop.c:260-365`). -/
def g2dElong1P (k k3 q : ℕ → ℝ) : ℝ :=
  4*k 14*q 3*(218739*k 6 + 46820*k3 6 - 49266*k3 4*q 2 + 187740*k3 2*q 4 - 22995*q 6 - 6*k 4*(66043*k3 2 - 333130*q 2) + k 2*(88699*k3 4 -
    918974*k3 2*q 2 + 847245*q 4))/7 + 4*k 8*q 1*(585*k 14*k3 4 - 2475*k3 10*q 8 + 15*k 2*k3 8*q 6*(20*k3 2 - 459*q 2) + 45*k 4*k3 6*q
    4*(202*k3 4 + 148*k3 2*q 2 + 135*q 4) - 15*k 12*(805*k3 6 + 1822*k3 4*q 2 - 210*k3 2*q 4 + 189*q 6) + k 10*(5655*k3 8 + 222610*k3 6*q 2
    - 419226*k3 4*q 4 + 54180*k3 2*q 6 - 11340*q 8) + 2*k 6*k3 4*(210*k3 8 - 34455*k3 6*q 2 + 4766*k3 4*q 4 - 28605*k3 2*q 6 + 5175*q 8) + k
    8*k3 2*(5415*k3 8 - 120370*k3 6*q 2 + 250234*k3 4*q 4 - 148950*k3 2*q 6 + 7560*q 8))/k3 4

/-- The logarithm of `k`, constant part of `kernel_gamma2d_elongate` (`src/gamma2d_1loop.c:260-365`). -/
def g2dElong0A (k k3 q : ℕ → ℝ) : ℝ :=
  15*k 9*(k 1 - q 1)*(k 1 - q 1)*(k 1 + q 1)*(k 1 + q 1)*((-582)*k 10 + 495*k3 4*q 6 + k 8*(2120*k3 2 + 6891*q 2) + k 6*(390*k3 4 + 758*k3
    2*q 2 - 7284*q 4) + k 4*(391*k3 4*q 2 - 4376*k3 2*q 4 + 471*q 6) - 6*k 2*(194*k3 4*q 4 - 219*k3 2*q 6))*2*(Real.log (abs ((k 1 + q 1)/(k
    1 - q 1))))

/-- The logarithm of `k3`, constant part of `kernel_gamma2d_elongate` (`src/gamma2d_1loop.c:260-365`). -/
def g2dElong0B (k k3 q : ℕ → ℝ) : ℝ :=
  105*k 16*(2*k3 4 + 7*k3 2*q 2 - 9*q 4)*(15*k3 8 - 46*k3 6*q 2 + 47*k3 4*q 4 - 8*k3 2*q 6 + k 4*(9*k3 4 + 2*k3 2*q 2 - 3*q 4) + 8*k
    2*(4*k3 6 - 17*k3 4*q 2 + 12*k3 2*q 4 - 3*q 6))*2*(Real.log (abs ((k3 1 + q 1)/(k3 1 - q 1))))/k3 5

/-- The logarithm with `k²-k3²+q²`, constant part of `kernel_gamma2d_elongate` (`src/gamma2d_1loop.c:260-365`). -/
def g2dElong0V (k k3 q : ℕ → ℝ) : ℝ :=
  420*k 19*q 3*(-k3 2 + q 2)*(2*k3 2 + 9*q 2)*((-4)*k 1*(Real.sqrt (q 2*(k 2 - k3 2 + q 2))) + q 1*(4*k 2 - 3*k3 2 + 3*q 2)*(Real.log
    ((2*k 2*q 1 - k3 2*q 1 + q 3 + 2*k 1*(Real.sqrt (q 2*(k 2 - k3 2 + q 2))))/(2*k 2*q 1 - k3 2*q 1 + q 3 - 2*k 1*(Real.sqrt (q 2*(k 2 - k3
    2 + q 2)))))))/((q 2*(k 2 - k3 2 + q 2))^(1.5:ℝ))

/-- The logarithm with `k3²-k²+q²`, constant part of `kernel_gamma2d_elongate` (`src/gamma2d_1loop.c:260-365`). -/
def g2dElong0X (k k3 q : ℕ → ℝ) : ℝ :=
  2160*k 16*k3 3*q 3*(k 2 - q 2)*(k 2 - q 2)*(4*k3 1*(Real.sqrt (q 2*(-k 2 + k3 2 + q 2))) + q 1*(3*k 2 - 4*k3 2 - 3*q 2)*(Real.log
    (-((-(k 2*q 1) + 2*k3 2*q 1 + q 3 + 2*k3 1*(Real.sqrt (q 2*(-k 2 + k3 2 + q 2))))/(k 2*q 1 - 2*k3 2*q 1 - q 3 + 2*k3 1*(Real.sqrt (q
    2*(-k 2 + k3 2 + q 2))))))))/((q 2*(-k 2 + k3 2 + q 2))^(1.5:ℝ))

/-- The logarithm of `k`, part divided by `eps²` of `kernel_gamma2d_elongate` (`src/gamma2d_1loop.c:260-365`). -/
def g2dElong1A (k k3 q : ℕ → ℝ) : ℝ :=
  15*k 7*(k 1 - q 1)*(k 1 - q 1)*(k 1 + q 1)*(k 1 + q 1)*(39*k 12 - 165*k3 6*q 6 - k 10*(791*k3 2 + 1947*q 2) + k 8*(601*k3 4 + 1787*k3
    2*q 2 + 1689*q 4) + k 6*(151*k3 6 + 179*k3 4*q 2 - 1113*k3 2*q 4 + 219*q 6) + k 4*(269*k3 6*q 2 - 321*k3 4*q 4 + 405*k3 2*q 6) - 51*k
    2*(5*k3 6*q 4 + 9*k3 4*q 6))*2*(Real.log (abs ((k 1 + q 1)/(k 1 - q 1))))

/-- The logarithm of `k3`, part divided by `eps²` of `kernel_gamma2d_elongate` (`src/gamma2d_1loop.c:260-365`). -/
def g2dElong1B (k k3 q : ℕ → ℝ) : ℝ :=
  105*k 14*(2*k3 4 + 7*k3 2*q 2 - 9*q 4)*(k 6*(k3 4 + 2*k3 2*q 2 - 3*q 4) + 4*k 4*(4*k3 6 - 14*k3 4*q 2 + 13*k3 2*q 4 - 3*q 6) - 2*k3
    4*(k3 6 + k3 2*q 4 - 2*q 6) + k 2*((-15)*k3 8 + 46*k3 6*q 2 - 47*k3 4*q 4 + 8*k3 2*q 6))*2*(Real.log (abs ((k3 1 + q 1)/(k3 1 - q
    1))))/k3 5

/-- The logarithm with `k²-k3²+q²`, part divided by `eps²` of `kernel_gamma2d_elongate` (`src/gamma2d_1loop.c:260-365`). -/
def g2dElong1V (k k3 q : ℕ → ℝ) : ℝ :=
  840*k 17*q 4*((-2)*k3 4 - 7*k3 2*q 2 + 9*q 4)*(Real.log ((2*k 2*q 1 - k3 2*q 1 + q 3 + 2*k 1*(Real.sqrt (q 2*(k 2 - k3 2 + q 2))))/(2*k
    2*q 1 - k3 2*q 1 + q 3 - 2*k 1*(Real.sqrt (q 2*(k 2 - k3 2 + q 2))))))/(Real.sqrt (q 2*(k 2 - k3 2 + q 2)))

/-- The logarithm with `k3²-k²+q²`, part divided by `eps²` of `kernel_gamma2d_elongate` (`src/gamma2d_1loop.c:260-365`). -/
def g2dElong1X (k k3 q : ℕ → ℝ) : ℝ :=
  4320*k 14*k3 3*q 4*(k 2 - q 2)*(k 2 - q 2)*(Real.log (-((-(k 2*q 1) + 2*k3 2*q 1 + q 3 + 2*k3 1*(Real.sqrt (q 2*(-k 2 + k3 2 + q
    2))))/(k 2*q 1 - 2*k3 2*q 1 - q 3 + 2*k3 1*(Real.sqrt (q 2*(-k 2 + k3 2 + q 2)))))))/(Real.sqrt (q 2*(-k 2 + k3 2 + q 2)))

theorem g2dElong_split (k eps k3 q : ℕ → ℝ) : g2dElongateE k eps k3 q =
    π*(g2dElong0P k k3 q - g2dElong0A k k3 q - g2dElong0B k k3 q + g2dElong0V k k3 q + g2dElong0X k k3 q + (g2dElong1P k k3 q - g2dElong1A k k3 q + g2dElong1B k k3 q - g2dElong1V k k3 q + g2dElong1X k k3 q)/eps 2)/(6.20928e6*k 18*q 5) := rfl

theorem g2dElong0V_eq (k1 k3 q s t : ℝ) (h1 : 0 < k1) (h3 : 0 < k3) (hq : 0 < q) (hmu : 0 < k1 ^ 2 - k3 ^ 2 + q ^ 2) (hy : q ≠ k3)
    (hs : s = Real.sqrt (q ^ 2 * (k1 ^ 2 - k3 ^ 2 + q ^ 2))) (ht : t = triLog (k1 * q) (q ^ 2 * (k1 ^ 2 - k3 ^ 2 + q ^ 2))) :
    g2dElong0V (pw k1) (pw k3) (pw q) = (6209280 * k1 ^ 18 * q ^ 5) * ((k1 * (2 * k3 ^ 4 + 7 * k3 ^ 2 * q ^ 2 - 9 * q ^ 4) / (7392 * q ^ 5)) * (-2 * q ^ 2 * t + q ^ 4 * collA ((k3 - q) * (k3 + q)) (k1 * q) (q ^ 2 * (k1 ^ 2 - k3 ^ 2 + q ^ 2)) q t)) := by
  have hs0 : 0 < s := by rw [hs]; exact Real.sqrt_pos.mpr (by positivity)
  have hm : k1 ^ 2 - k3 ^ 2 + q ^ 2 ≠ 0 := hmu.ne'
  have d1 : k3 - q ≠ 0 := sub_ne_zero.mpr hy.symm
  have d2 : k3 + q ≠ 0 := by positivity
  have e : g2dElong0V (pw k1) (pw k3) (pw q) = 420*k1 ^ 19*q ^ 3*(-k3 ^ 2 + q ^ 2)*(2*k3 ^ 2 + 9*q ^ 2)*((-4)*k1*s + q*(4*k1 ^ 2 - 3*k3 ^ 2 + 3*q ^ 2)*(s * t))/(q ^ 2 * (k1 ^ 2 - k3 ^ 2 + q ^ 2) * s) := by
    simp only [g2dElong0V, pw, pow_one, C01_power]
    rw [rpow_three_half _ (by positivity), collLog k1 k3 q h1 h3 hq hmu hy, ← hs, ← ht]
  rw [e]
  unfold collA
  field_simp
  ring

theorem g2dElong1V_eq (k1 k3 q s t : ℝ) (h1 : 0 < k1) (h3 : 0 < k3) (hq : 0 < q) (hmu : 0 < k1 ^ 2 - k3 ^ 2 + q ^ 2) (hy : q ≠ k3)
    (hs : s = Real.sqrt (q ^ 2 * (k1 ^ 2 - k3 ^ 2 + q ^ 2))) (ht : t = triLog (k1 * q) (q ^ 2 * (k1 ^ 2 - k3 ^ 2 + q ^ 2))) :
    k1 ^ 2 * (-g2dElong1V (pw k1) (pw k3) (pw q)) = (6209280 * k1 ^ 18 * q ^ 5) * ((k1 * (2 * k3 ^ 4 + 7 * k3 ^ 2 * q ^ 2 - 9 * q ^ 4) / (7392 * q ^ 5)) * (q ^ 4 * t)) := by
  have hs0 : 0 < s := by rw [hs]; exact Real.sqrt_pos.mpr (by positivity)
  have hm : k1 ^ 2 - k3 ^ 2 + q ^ 2 ≠ 0 := hmu.ne'
  have d1 : k3 - q ≠ 0 := sub_ne_zero.mpr hy.symm
  have d2 : k3 + q ≠ 0 := by positivity
  have e : g2dElong1V (pw k1) (pw k3) (pw q) = 840*k1 ^ 17*q ^ 4*((-2)*k3 ^ 4 - 7*k3 ^ 2*q ^ 2 + 9*q ^ 4)*(s * t)/s := by
    simp only [g2dElong1V, pw, pow_one, C01_power]
    rw [collLog k1 k3 q h1 h3 hq hmu hy, ← hs, ← ht]
  rw [e]
  field_simp
  ring

theorem g2dElong0X_eq (k1 k3 q s t : ℝ) (h1 : 0 < k1) (h3 : 0 < k3) (hq : 0 < q) (hmu : 0 < -k1 ^ 2 + k3 ^ 2 + q ^ 2) (hy : q ≠ k1)
    (hs : s = Real.sqrt (q ^ 2 * (-k1 ^ 2 + k3 ^ 2 + q ^ 2))) (ht : t = triLog (k3 * q) (q ^ 2 * (-k1 ^ 2 + k3 ^ 2 + q ^ 2))) :
    g2dElong0X (pw k1) (pw k3) (pw q) = (6209280 * k1 ^ 18 * q ^ 5) * ((3 * k3 ^ 3 * ((k1 - q) * (k1 + q)) ^ 2 / (4312 * k1 ^ 2 * q ^ 5)) * (-2 * q ^ 2 * t + q ^ 4 * collA ((k1 - q) * (k1 + q)) (k3 * q) (q ^ 2 * (-k1 ^ 2 + k3 ^ 2 + q ^ 2)) q t)) := by
  have hs0 : 0 < s := by rw [hs]; exact Real.sqrt_pos.mpr (by positivity)
  have hm : -k1 ^ 2 + k3 ^ 2 + q ^ 2 ≠ 0 := hmu.ne'
  have d1 : k1 - q ≠ 0 := sub_ne_zero.mpr hy.symm
  have d2 : k1 + q ≠ 0 := by positivity
  have e : g2dElong0X (pw k1) (pw k3) (pw q) = 2160*k1 ^ 16*k3 ^ 3*q ^ 3*(k1 ^ 2 - q ^ 2)*(k1 ^ 2 - q ^ 2)*(4*k3*s + q*(3*k1 ^ 2 - 4*k3 ^ 2 - 3*q ^ 2)*(s * t))/(q ^ 2 * (-k1 ^ 2 + k3 ^ 2 + q ^ 2) * s) := by
    simp only [g2dElong0X, pw, pow_one, C01_power]
    rw [rpow_three_half _ (by positivity), collLog' k1 k3 q h1 h3 hq hmu hy, ← hs, ← ht]
  rw [e]
  unfold collA
  field_simp
  ring

theorem g2dElong1X_eq (k1 k3 q s t : ℝ) (h1 : 0 < k1) (h3 : 0 < k3) (hq : 0 < q) (hmu : 0 < -k1 ^ 2 + k3 ^ 2 + q ^ 2) (hy : q ≠ k1)
    (hs : s = Real.sqrt (q ^ 2 * (-k1 ^ 2 + k3 ^ 2 + q ^ 2))) (ht : t = triLog (k3 * q) (q ^ 2 * (-k1 ^ 2 + k3 ^ 2 + q ^ 2))) :
    k1 ^ 2 * (g2dElong1X (pw k1) (pw k3) (pw q)) = (6209280 * k1 ^ 18 * q ^ 5) * ((3 * k3 ^ 3 * ((k1 - q) * (k1 + q)) ^ 2 / (4312 * k1 ^ 2 * q ^ 5)) * (q ^ 4 * t)) := by
  have hs0 : 0 < s := by rw [hs]; exact Real.sqrt_pos.mpr (by positivity)
  have hm : -k1 ^ 2 + k3 ^ 2 + q ^ 2 ≠ 0 := hmu.ne'
  have d1 : k1 - q ≠ 0 := sub_ne_zero.mpr hy.symm
  have d2 : k1 + q ≠ 0 := by positivity
  have e : g2dElong1X (pw k1) (pw k3) (pw q) = 4320*k1 ^ 14*k3 ^ 3*q ^ 4*(k1 ^ 2 - q ^ 2)*(k1 ^ 2 - q ^ 2)*(s * t)/s := by
    simp only [g2dElong1X, pw, pow_one, C01_power]
    rw [collLog' k1 k3 q h1 h3 hq hmu hy, ← hs, ← ht]
  rw [e]
  field_simp
  ring

/-- Part of the coefficient of `LFunc(k1,q)` beyond `kernel_gamma2d_elongate`. -/
def g2dElongTA (k1 k2 k3 q : ℕ → ℝ) : ℝ :=
  ((-(17*k1 12) - 164*k1 10*k2 2 + 211*k1 10*k3 2) + (2189*k1 10 - 11*k1 8*k2 2 + 137*k1 8*k3 2)*q 2 + (-(6750*k1 8) + 1072*k1 6*k2 2 -
    1938*k1 6*k3 2)*q 4 + (7286*k1 6 - 1510*k1 4*k2 2 + 2786*k1 4*k3 2)*q 6 + (-(2993*k1 4) + 668*k1 2*k2 2 - 1361*k1 2*k3 2)*q 8 + (285*k1
    2 - 55*k2 2 + 165*k3 2)*q 10)/(137984*k1 9*q 5)

set_option maxHeartbeats 1000000 in
theorem g2dElongA_eq (k1 k2 k3 q : ℝ) (h1 : 0 < k1) (h2 : 0 < k2) (h3 : 0 < k3) (hq : 0 < q) :
    (-g2dElong0A (pw k1) (pw k3) (pw q) - k1 ^ 2 / k2 ^ 2 * g2dElong1A (pw k1) (pw k3) (pw q)) / (6209280 * k1 ^ 18 * q ^ 5) =
    (g2dCL1 (pw k1) (pw k2) (pw k3) (pw q) - k2 ^ 2 * g2dElongTA (pw k1) (pw k2) (pw k3) (pw q)) * LFunc k1 q := by
  simp only [g2dElong0A, g2dElong1A, g2dCL1, g2dElongTA, LFunc, pw, pow_one, C01_power]
  generalize Real.log |(k1 + q) / (k1 - q)| = l
  field_simp
  ring

/-- Part of the coefficient of `LFunc(k3,q)` beyond `kernel_gamma2d_elongate`. -/
def g2dElongTB (k1 k2 k3 q : ℕ → ℝ) : ℝ :=
  ((-(18*k1 2*k3 8) + 2*k2 2*k3 8 + 32*k3 10) + (-(67*k1 2*k3 6) + 11*k2 2*k3 6)*q 2 + (73*k1 2*k3 4 - k2 2*k3 4 - 432*k3 6)*q 4 + (39*k1
    2*k3 2 - 39*k2 2*k3 2 + 844*k3 4)*q 6 + (-(27*k1 2) + 27*k2 2 - 552*k3 2)*q 8 + (108)*q 10)/(59136*k1 2*k3 5*q 5)

set_option maxHeartbeats 1000000 in
theorem g2dElongB_eq (k1 k2 k3 q : ℝ) (h1 : 0 < k1) (h2 : 0 < k2) (h3 : 0 < k3) (hq : 0 < q) :
    (-g2dElong0B (pw k1) (pw k3) (pw q) + k1 ^ 2 / k2 ^ 2 * g2dElong1B (pw k1) (pw k3) (pw q)) / (6209280 * k1 ^ 18 * q ^ 5) =
    (g2dCL3 (pw k1) (pw k2) (pw k3) (pw q) - k2 ^ 2 * g2dElongTB (pw k1) (pw k2) (pw k3) (pw q)) * LFunc k3 q := by
  simp only [g2dElong0B, g2dElong1B, g2dCL3, g2dElongTB, LFunc, pw, pow_one, C01_power]
  generalize Real.log |(k3 + q) / (k3 - q)| = l
  field_simp
  ring

/-- Rational part of the exact kernel beyond `kernel_gamma2d_elongate`. -/
def g2dElongTP (k1 k2 k3 q : ℕ → ℝ) : ℝ :=
  ((-(17220*k1 12*k2 8*k3 4) - 1785*k1 10*k2 10*k3 4 + 22155*k1 10*k2 8*k3 6 + 20370*k1 8*k2 12*k3 4 - 74200*k1 8*k2 10*k3 6 - 13650*k1
    8*k2 8*k3 8 - 1365*k1 6*k2 14*k3 4 + 27685*k1 6*k2 12*k3 6 - 21035*k1 6*k2 10*k3 8 - 5285*k1 6*k2 8*k3 10) + (-(23295*k1 12*k2 6*k3 4) +
    227550*k1 10*k2 8*k3 4 + 42870*k1 10*k2 6*k3 6 - 255735*k1 8*k2 10*k3 4 + 26470*k1 8*k2 8*k3 6 - 3935*k1 8*k2 6*k3 8 + 69120*k1 6*k2
    12*k3 4 - 82320*k1 6*k2 10*k3 6 + 8760*k1 6*k2 8*k3 8 - 5640*k1 6*k2 6*k3 10)*q 2 + (80079*k1 12*k2 4*k3 4 - 416448*k1 10*k2 6*k3 4 -
    145116*k1 10*k2 4*k3 6 + 431871*k1 8*k2 8*k3 4 + 155150*k1 8*k2 6*k3 6 + 47395*k1 8*k2 4*k3 8 - 108102*k1 6*k2 10*k3 4 + 89958*k1 6*k2
    8*k3 6 + 10902*k1 6*k2 6*k3 8 + 14442*k1 6*k2 4*k3 10)*q 4 + (-(67569*k1 12*k2 2*k3 4) + 262146*k1 10*k2 4*k3 4 + 123258*k1 10*k2 2*k3 6
    - 239745*k1 8*k2 6*k3 4 - 212334*k1 8*k2 4*k3 6 - 58913*k1 8*k2 2*k3 8 + 49200*k1 6*k2 8*k3 4 - 37312*k1 6*k2 6*k3 6 - 7816*k1 6*k2 4*k3
    8 - 6376*k1 6*k2 2*k3 10)*q 6 + (-(89547*k1 12*k3 4) + 67065*k1 10*k2 2*k3 4 + 109473*k1 10*k3 6 + 2439*k1 8*k2 4*k3 4 - 306494*k1 8*k2
    2*k3 6 - 53217*k1 8*k3 8 + 32139*k1 6*k2 6*k3 4 + 109029*k1 6*k2 4*k3 6 - 114171*k1 6*k2 2*k3 8 - 33909*k1 6*k3 10)*q 8 + (977409*k1
    10*k3 4 - 1320540*k1 8*k2 2*k3 4 + 1552983*k1 8*k3 6 + 317568*k1 6*k2 4*k3 4 - 945594*k1 6*k2 2*k3 6 + 415584*k1 6*k3 8)*q 10 +
    (5428683*k1 8*k3 4 - 1897398*k1 6*k2 2*k3 4 + 6039414*k1 6*k3 6)*q 12 + (-(66150*k1 8*k3 2) + 66150*k1 6*k2 2*k3 2 - 7340508*k1 6*k3 4 +
    1226925*k1 4*k2 2*k3 4 - 2235240*k1 4*k3 6)*q 14 + (59535*k1 8 - 59535*k1 6*k2 2 + 1137780*k1 6*k3 2 + 2738610*k1 4*k3 4 - 613935*k1
    2*k2 2*k3 4 + 1234170*k1 2*k3 6)*q 16 + (-(238140*k1 6) - 269325*k1 2*k3 4 + 51975*k2 2*k3 4 - 155925*k3 6)*q 18)/(32598720*k1 8*k3 4*q
    14)

set_option maxHeartbeats 2000000 in
theorem g2dElongP_eq (k1 k2 k3 q : ℝ) (h1 : 0 < k1) (h2 : 0 < k2) (h3 : 0 < k3) (hq : 0 < q) :
    (g2dElong0P (pw k1) (pw k3) (pw q) + k1 ^ 2 / k2 ^ 2 * g2dElong1P (pw k1) (pw k3) (pw q)) / (6209280 * k1 ^ 18 * q ^ 5) =
    g2dC0 (pw k1) (pw k2) (pw k3) (pw q) + g2dCL2 (pw k1) (pw k2) (pw k3) (pw q) * (4 * artSum 5 (k2 / q)) - k2 ^ 2 * g2dElongTP (pw k1) (pw k2) (pw k3) (pw q) := by
  simp only [artSum, Finset.sum_range_succ, Finset.sum_range_zero]
  push_cast
  simp only [g2dElong0P, g2dElong1P, g2dC0, g2dCL2, g2dElongTP, pw, pow_one, C01_power]
  field_simp
  ring

theorem g2dCW1_elong (k1 k2 k3 q : ℝ) (h1 : 0 < k1) (h2 : 0 < k2) (hq : 0 < q) :
    g2dCW1 (pw k1) (pw k2) (pw k3) (pw q) = (3 * k3 ^ 3 * ((k1 - q) * (k1 + q)) ^ 2 / (4312 * k1 ^ 2 * q ^ 5)) * (q ^ 4 / k2 ^ 2 - 2 * q ^ 2 + k2 ^ 2) := by
  simp only [g2dCW1, pw, pow_one]
  field_simp
  ring

theorem g2dCW3_elong (k1 k2 k3 q : ℝ) (h2 : 0 < k2) (hq : 0 < q) :
    g2dCW3 (pw k1) (pw k2) (pw k3) (pw q) = (k1 * (2 * k3 ^ 4 + 7 * k3 ^ 2 * q ^ 2 - 9 * q ^ 4) / (7392 * q ^ 5)) * (q ^ 4 / k2 ^ 2 - 2 * q ^ 2 + k2 ^ 2) := by
  simp only [g2dCW3, pw, pow_one]
  field_simp
  ring

/-- What the expanded exact kernel has beyond `kernel_gamma2d_elongate`, without the factor `k2^2`. -/
def g2dElongT (k1 k2 k3 q : ℝ) : ℝ :=
  g2dElongTP (pw k1) (pw k2) (pw k3) (pw q) + g2dElongTA (pw k1) (pw k2) (pw k3) (pw q) * LFunc k1 q + g2dElongTB (pw k1) (pw k2) (pw k3) (pw q) * LFunc k3 q +
    (3 * k3 ^ 3 * ((k1 - q) * (k1 + q)) ^ 2 / (4312 * k1 ^ 2 * q ^ 5)) * ((triLog (k3 * q) (q ^ 2 * (-k1 ^ 2 + k3 ^ 2 + q ^ 2))) + (-2 * q ^ 2 + k2 ^ 2) * collA ((k1 - q) * (k1 + q)) (k3 * q) (q ^ 2 * (-k1 ^ 2 + k3 ^ 2 + q ^ 2)) q (triLog (k3 * q) (q ^ 2 * (-k1 ^ 2 + k3 ^ 2 + q ^ 2)))) +
    (k1 * (2 * k3 ^ 4 + 7 * k3 ^ 2 * q ^ 2 - 9 * q ^ 4) / (7392 * q ^ 5)) * ((triLog (k1 * q) (q ^ 2 * (k1 ^ 2 - k3 ^ 2 + q ^ 2))) + (-2 * q ^ 2 + k2 ^ 2) * collA ((k3 - q) * (k3 + q)) (k1 * q) (q ^ 2 * (k1 ^ 2 - k3 ^ 2 + q ^ 2)) q (triLog (k1 * q) (q ^ 2 * (k1 ^ 2 - k3 ^ 2 + q ^ 2))))

set_option maxHeartbeats 1000000 in
theorem g2d_elong_identity (k1 k2 k3 q : ℝ) (h1 : 0 < k1) (h2 : 0 < k2) (h3 : 0 < k3) (hq : 0 < q) (n1 : q ≠ k1) (n3 : q ≠ k3)
    (mx : 0 < -k1 ^ 2 + k3 ^ 2 + q ^ 2) (mv : 0 < k1 ^ 2 - k3 ^ 2 + q ^ 2) :
    π * (g2dC0 (pw k1) (pw k2) (pw k3) (pw q) + g2dCL1 (pw k1) (pw k2) (pw k3) (pw q) * LFunc k1 q + g2dCL2 (pw k1) (pw k2) (pw k3) (pw q) * (4 * artSum 5 (k2 / q)) + g2dCL3 (pw k1) (pw k2) (pw k3) (pw q) * LFunc k3 q +
      g2dCW1 (pw k1) (pw k2) (pw k3) (pw q) * elongW ((k1 - q) * (k1 + q)) (k3 * q) (q ^ 2 * (-k1 ^ 2 + k3 ^ 2 + q ^ 2)) q k2 +
      g2dCW3 (pw k1) (pw k2) (pw k3) (pw q) * elongW ((k3 - q) * (k3 + q)) (k1 * q) (q ^ 2 * (k1 ^ 2 - k3 ^ 2 + q ^ 2)) q k2) -
      g2dElongateE (pw k1) (pw (k2 / k1)) (pw k3) (pw q) =
    π * (k2 ^ 2 * g2dElongT k1 k2 k3 q) := by
  have a0 := g2dElongA_eq k1 k2 k3 q h1 h2 h3 hq
  have b0 := g2dElongB_eq k1 k2 k3 q h1 h2 h3 hq
  have p0 := g2dElongP_eq k1 k2 k3 q h1 h2 h3 hq
  have wX0 := g2dElong0X_eq k1 k3 q _ _ h1 h3 hq mx n1 rfl rfl
  have wX1 := g2dElong1X_eq k1 k3 q _ _ h1 h3 hq mx n1 rfl rfl
  have wV0 := g2dElong0V_eq k1 k3 q _ _ h1 h3 hq mv n3 rfl rfl
  have wV1 := g2dElong1V_eq k1 k3 q _ _ h1 h3 hq mv n3 rfl rfl
  have f0 (z : ℝ) : (6209280 * k1 ^ 18 * q ^ 5) * z / (6209280 * k1 ^ 18 * q ^ 5) = z := by
    field_simp
  have f1 (z : ℝ) : (6209280 * k1 ^ 18 * q ^ 5) * z / k2 ^ 2 / (6209280 * k1 ^ 18 * q ^ 5) = z / k2 ^ 2 := by
    field_simp
  have vV0 := congrArg (fun z => z / (6209280 * k1 ^ 18 * q ^ 5)) wV0
  have vV1 := congrArg (fun z => z / k2 ^ 2 / (6209280 * k1 ^ 18 * q ^ 5)) wV1
  simp only [f0] at vV0
  simp only [f1] at vV1
  have vX0 := congrArg (fun z => z / (6209280 * k1 ^ 18 * q ^ 5)) wX0
  have vX1 := congrArg (fun z => z / k2 ^ 2 / (6209280 * k1 ^ 18 * q ^ 5)) wX1
  simp only [f0] at vX0
  simp only [f1] at vX1
  rw [g2dCW1_elong k1 k2 k3 q h1 h2 hq, g2dCW3_elong k1 k2 k3 q h2 hq, g2dElong_split, g2dElongT]
  unfold elongW
  have e2 : pw (k2 / k1) 2 = k2 ^ 2 / k1 ^ 2 := by simp only [pw, div_pow]
  have e3 (z : ℝ) : z / (k2 ^ 2 / k1 ^ 2) = k1 ^ 2 / k2 ^ 2 * z := by rw [div_div_eq_mul_div]; ring
  rw [e2, e3]
  have e4 : k2 ^ 2 / k2 ^ 2 = 1 := div_self (by positivity)
  simp only [show ∀ x n, pw x n = x ^ n from fun _ _ => rfl, show (6.20928e6 : ℝ) = 6209280 from by norm_num]
  linear_combination (-π) * (a0 + b0 + p0 + vX0 + vX1 + vV0 + vV1) + π * q ^ 4 * ((3 * k3 ^ 3 * ((k1 - q) * (k1 + q)) ^ 2 / (4312 * k1 ^ 2 * q ^ 5)) * collA ((k1 - q) * (k1 + q)) (k3 * q) (q ^ 2 * (-k1 ^ 2 + k3 ^ 2 + q ^ 2)) q (triLog (k3 * q) (q ^ 2 * (-k1 ^ 2 + k3 ^ 2 + q ^ 2))) + (k1 * (2 * k3 ^ 4 + 7 * k3 ^ 2 * q ^ 2 - 9 * q ^ 4) / (7392 * q ^ 5)) * collA ((k3 - q) * (k3 + q)) (k1 * q) (q ^ 2 * (k1 ^ 2 - k3 ^ 2 + q ^ 2)) q (triLog (k1 * q) (q ^ 2 * (k1 ^ 2 - k3 ^ 2 + q ^ 2)))) * e4

/-- `g2dCL2` times `k2^9`. -/
def g2dCL2N (k1 k2 k3 q : ℕ → ℝ) : ℝ :=
  ((-(492*k1 6*k2 10) - 51*k1 4*k2 12 + 633*k1 4*k2 10*k3 2 + 582*k1 2*k2 14 - 2120*k1 2*k2 12*k3 2 - 390*k1 2*k2 10*k3 4 - 39*k2 16 +
    791*k2 14*k3 2 - 601*k2 12*k3 4 - 151*k2 10*k3 6) + (-(33*k1 6*k2 8) + 6567*k1 4*k2 10 + 411*k1 4*k2 8*k3 2 - 8055*k1 2*k2 12 + 3482*k1
    2*k2 10*k3 2 + 389*k1 2*k2 8*k3 4 + 2025*k2 14 - 3369*k2 12*k3 2 + 1023*k2 10*k3 4 + 33*k2 8*k3 6)*q 2 + (3216*k1 6*k2 6 - 20250*k1 4*k2
    8 - 5814*k1 4*k2 6*k3 2 + 21648*k1 2*k2 10 + 3772*k1 2*k2 8*k3 2 + 1556*k1 2*k2 6*k3 4 - 5622*k2 12 + 5478*k2 10*k3 2 + 78*k2 8*k3 4 +
    642*k2 6*k3 6)*q 4 + (-(4530*k1 6*k2 4) + 21858*k1 4*k2 6 + 8358*k1 4*k2 4*k3 2 - 21930*k1 2*k2 8 - 10824*k1 2*k2 6*k3 2 - 3214*k1 2*k2
    4*k3 4 + 5106*k2 10 - 4418*k2 8*k3 2 - 362*k2 6*k3 4 - 614*k2 4*k3 6)*q 6 + (2004*k1 6*k2 2 - 8979*k1 4*k2 4 - 4083*k1 4*k2 2*k3 2 +
    8226*k1 2*k2 6 + 7004*k1 2*k2 4*k3 2 + 2154*k1 2*k2 2*k3 4 - 1251*k2 8 + 1923*k2 6*k3 2 - 597*k2 4*k3 4 - 75*k2 2*k3 6)*q 8 + (-(165*k1
    6) + 855*k1 4*k2 2 + 495*k1 4*k3 2 - 471*k1 2*k2 4 - 1314*k1 2*k2 2*k3 2 - 495*k1 2*k3 4 - 219*k2 6 - 405*k2 4*k3 2 + 459*k2 2*k3 4 +
    165*k3 6)*q 10)/(413952*k1 2*q 5)

theorem g2dCL2N_eq (k1 k2 k3 q : ℝ) (h1 : 0 < k1) (h2 : 0 < k2) (h3 : 0 < k3) (hq : 0 < q) :
    g2dCL2 (pw k1) (pw k2) (pw k3) (pw q) * k2 ^ 11 = g2dCL2N (pw k1) (pw k2) (pw k3) (pw q) * k2 ^ 2 := by
  simp only [g2dCL2, g2dCL2N, pw, pow_one]
  field_simp
  try ring

/-- `g2dCW2` divided by `k2`. -/
def g2dCW2N (k1 k3 q : ℝ) : ℝ := (k1 ^ 2 - q ^ 2) ^ 2 * (2 * k3 ^ 4 + 7 * k3 ^ 2 * q ^ 2 - 9 * q ^ 4) / (7392 * k1 ^ 2 * q ^ 5)

theorem g2dCW2N_eq (k1 k2 k3 q : ℝ) (h1 : 0 < k1) (hq : 0 < q) :
    g2dCW2 (pw k1) (pw k2) (pw k3) (pw q) * k2 = g2dCW2N k1 k3 q * k2 ^ 2 := by
  simp only [g2dCW2, g2dCW2N, pw, pow_one]
  field_simp
  ring

set_option maxHeartbeats 1000000 in
theorem g2dCL2N_elong (a q : ℝ) (ha : 0 < a) (hq : 0 < q) :
    ContinuousAt (fun p : ℝ × ℝ × ℝ => g2dCL2N (pw p.1) (pw p.2.1) (pw p.2.2) (pw q)) (a, 0, a) := by
  simp only [g2dCL2N, pw]
  exact ContinuousAt.div (by fun_prop) (by fun_prop) (by positivity)

set_option maxHeartbeats 1000000 in
theorem g2dElongTP_elong (a q : ℝ) (ha : 0 < a) (hq : 0 < q) :
    ContinuousAt (fun p : ℝ × ℝ × ℝ => g2dElongTP (pw p.1) (pw p.2.1) (pw p.2.2) (pw q)) (a, 0, a) := by
  simp only [g2dElongTP, pw]
  exact ContinuousAt.div (by fun_prop) (by fun_prop) (by positivity)

set_option maxHeartbeats 1000000 in
theorem g2dElongTA_elong (a q : ℝ) (ha : 0 < a) (hq : 0 < q) :
    ContinuousAt (fun p : ℝ × ℝ × ℝ => g2dElongTA (pw p.1) (pw p.2.1) (pw p.2.2) (pw q)) (a, 0, a) := by
  simp only [g2dElongTA, pw]
  exact ContinuousAt.div (by fun_prop) (by fun_prop) (by positivity)

set_option maxHeartbeats 1000000 in
theorem g2dElongTB_elong (a q : ℝ) (ha : 0 < a) (hq : 0 < q) :
    ContinuousAt (fun p : ℝ × ℝ × ℝ => g2dElongTB (pw p.1) (pw p.2.1) (pw p.2.2) (pw q)) (a, 0, a) := by
  simp only [g2dElongTB, pw]
  exact ContinuousAt.div (by fun_prop) (by fun_prop) (by positivity)

theorem g2dElongT_cont (a q : ℝ) (ha : 0 < a) (hq : 0 < q) (n : q ≠ a) :
    ContinuousAt (fun p : ℝ × ℝ × ℝ => g2dElongT p.1 p.2.1 p.2.2 q) (a, 0, a) := by
  have c1 : ContinuousAt (fun p : ℝ × ℝ × ℝ => p.1) (a, 0, a) := by fun_prop
  have c3 : ContinuousAt (fun p : ℝ × ℝ × ℝ => p.2.2) (a, 0, a) := by fun_prop
  obtain ⟨ax, tx⟩ := elong_cont a q (fun p => p.2.2) (fun p => p.1) ha hq n c3 c1 rfl rfl
    (fun p => q ^ 2 * (-p.1 ^ 2 + p.2.2 ^ 2 + q ^ 2)) (fun p => by ring)
  obtain ⟨av, tv⟩ := elong_cont a q (fun p => p.1) (fun p => p.2.2) ha hq n c1 c3 rfl rfl
    (fun p => q ^ 2 * (p.1 ^ 2 - p.2.2 ^ 2 + q ^ 2)) (fun p => rfl)
  have l1 := cont_LFunc q _ _ c1 ha hq n
  have l3 := cont_LFunc q _ _ c3 ha hq n
  have wx : ContinuousAt (fun p : ℝ × ℝ × ℝ => 3 * p.2.2 ^ 3 * ((p.1 - q) * (p.1 + q)) ^ 2 / (4312 * p.1 ^ 2 * q ^ 5)) (a, 0, a) :=
    ContinuousAt.div (by fun_prop) (by fun_prop) (by positivity)
  have wv : ContinuousAt (fun p : ℝ × ℝ × ℝ => p.1 * (2 * p.2.2 ^ 4 + 7 * p.2.2 ^ 2 * q ^ 2 - 9 * q ^ 4) / (7392 * q ^ 5)) (a, 0, a) :=
    ContinuousAt.div (by fun_prop) (by fun_prop) (by positivity)
  have e : ContinuousAt (fun p : ℝ × ℝ × ℝ => (-2 * q ^ 2 + p.2.1 ^ 2 : ℝ)) (a, 0, a) := by fun_prop
  unfold g2dElongT
  exact ((((g2dElongTP_elong a q ha hq).add ((g2dElongTA_elong a q ha hq).mul l1)).add ((g2dElongTB_elong a q ha hq).mul l3)).add
    (wx.mul (tx.add (e.mul ax)))).add (wv.mul (tv.add (e.mul av)))

/-- **As the second side goes to zero**, the exact kernel differs from the one used by the code at order `k2^2`. -/
theorem g2d_elong (a q : ℝ) (ha : 0 < a) (hq : 0 < q) (n : q ≠ a) :
    (fun p : ℝ × ℝ × ℝ => g2dExact p.1 p.2.1 p.2.2 q - g2dElongate p.1 p.2.1 p.2.2 q) =O[elongF a] fun p => p.2.1 ^ 2 := by
  have c1 : ContinuousAt (fun p : ℝ × ℝ × ℝ => p.1) (a, 0, a) := by fun_prop
  have c2 : ContinuousAt (fun p : ℝ × ℝ × ℝ => p.2.1) (a, 0, a) := by fun_prop
  have c3 : ContinuousAt (fun p : ℝ × ℝ × ℝ => p.2.2) (a, 0, a) := by fun_prop
  have r0 := elong_L2 a q hq
  have r2 := elong_W2 a q ha hq n
  have rx := elong_W a q (fun p => p.2.2) (fun p => p.1) ha hq n c3 c1 rfl rfl
    (fun p => q ^ 2 * (-p.1 ^ 2 + p.2.2 ^ 2 + q ^ 2)) (fun p => by ring)
  have rv := elong_W a q (fun p => p.1) (fun p => p.2.2) ha hq n c1 c3 rfl rfl
    (fun p => q ^ 2 * (p.1 ^ 2 - p.2.2 ^ 2 + q ^ 2)) (fun p => rfl)
  have cw2 : ContinuousAt (fun p : ℝ × ℝ × ℝ => g2dCW2N p.1 p.2.2 q) (a, 0, a) := by
    unfold g2dCW2N
    exact ContinuousAt.div (by fun_prop) (by fun_prop) (by positivity)
  have wx : ContinuousAt (fun p : ℝ × ℝ × ℝ => 3 * p.2.2 ^ 3 * ((p.1 - q) * (p.1 + q)) ^ 2 / (4312 * p.1 ^ 2 * q ^ 5) * (q ^ 4 - 2 * q ^ 2 * p.2.1 ^ 2 + p.2.1 ^ 4)) (a, 0, a) :=
    (ContinuousAt.div (by fun_prop) (by fun_prop) (by positivity)).mul (by fun_prop)
  have wv : ContinuousAt (fun p : ℝ × ℝ × ℝ => p.1 * (2 * p.2.2 ^ 4 + 7 * p.2.2 ^ 2 * q ^ 2 - 9 * q ^ 4) / (7392 * q ^ 5) * (q ^ 4 - 2 * q ^ 2 * p.2.1 ^ 2 + p.2.1 ^ 4)) (a, 0, a) :=
    (ContinuousAt.div (by fun_prop) (by fun_prop) (by positivity)).mul (by fun_prop)
  have k2 := isBigO_refl (fun p : ℝ × ℝ × ℝ => p.2.1 ^ 2) (elongF a)
  have s0 := (elongF_one (g2dCL2N_elong a q ha hq)).mul k2
  have s2 := (elongF_one cw2).mul k2
  have sx := (elongF_one wx).mul k2
  have sv := (elongF_one wv).mul k2
  have s4 := (elongF_one (g2dElongT_cont a q ha hq n)).mul k2
  simp only [one_mul] at s0 s2 sx sv s4
  have t0 : (fun p : ℝ × ℝ × ℝ => g2dCL2 (pw p.1) (pw p.2.1) (pw p.2.2) (pw q) * (LFunc p.2.1 q - 4 * artSum 5 (p.2.1 / q))) =O[elongF a] fun p => p.2.1 ^ 2 := by
    refine ((isBigO_refl _ _).mul r0).trans (s0.congr' ?_ EventuallyEq.rfl)
    filter_upwards [elongF_tri a] with p ht
    exact (g2dCL2N_eq _ _ _ _ ht.pos1 ht.pos2 ht.pos3 hq).symm
  have t2 : (fun p : ℝ × ℝ × ℝ => g2dCW2 (pw p.1) (pw p.2.1) (pw p.2.2) (pw q) * triLog (p.2.1 * q) (triM p.1 p.2.2 p.2.1 q)) =O[elongF a] fun p => p.2.1 ^ 2 := by
    refine ((isBigO_refl _ _).mul r2).trans (s2.congr' ?_ EventuallyEq.rfl)
    filter_upwards [elongF_tri a] with p ht
    exact (g2dCW2N_eq _ _ _ _ ht.pos1 hq).symm
  have tx : (fun p : ℝ × ℝ × ℝ => g2dCW1 (pw p.1) (pw p.2.1) (pw p.2.2) (pw q) * (triLog (p.2.2 * q) (triM p.1 p.2.1 p.2.2 q) -
      elongW ((p.1 - q) * (p.1 + q)) (p.2.2 * q) (q ^ 2 * (-p.1 ^ 2 + p.2.2 ^ 2 + q ^ 2)) q p.2.1)) =O[elongF a] fun p => p.2.1 ^ 2 := by
    refine ((isBigO_refl _ _).mul rx).trans (sx.congr' ?_ EventuallyEq.rfl)
    filter_upwards [elongF_tri a] with p ht
    rw [g2dCW1_elong _ _ _ _ ht.pos1 ht.pos2 hq]
    have := ht.pos2.ne'
    have := ht.pos1.ne'
    field_simp
  have tv : (fun p : ℝ × ℝ × ℝ => g2dCW3 (pw p.1) (pw p.2.1) (pw p.2.2) (pw q) * (triLog (p.1 * q) (triM p.2.2 p.2.1 p.1 q) -
      elongW ((p.2.2 - q) * (p.2.2 + q)) (p.1 * q) (q ^ 2 * (p.1 ^ 2 - p.2.2 ^ 2 + q ^ 2)) q p.2.1)) =O[elongF a] fun p => p.2.1 ^ 2 := by
    refine ((isBigO_refl _ _).mul rv).trans (sv.congr' ?_ EventuallyEq.rfl)
    filter_upwards [elongF_tri a] with p ht
    rw [g2dCW3_elong _ _ _ _ ht.pos2 hq]
    have := ht.pos2.ne'
    field_simp
  refine (((((t0.add tx).add t2).add tv).add s4).const_mul_left π).congr' ?_ EventuallyEq.rfl
  have e1 : ∀ᶠ p in elongF a, p.1 ≠ q := elongF_ev (c1.eventually_ne n.symm)
  have e2 : ∀ᶠ p in elongF a, p.2.1 ≠ q := elongF_ev (c2.eventually_ne hq.ne)
  have e3 : ∀ᶠ p in elongF a, p.2.2 ≠ q := elongF_ev (c3.eventually_ne n.symm)
  have e4 : ∀ᶠ p in elongF a, 0 < p.1 - p.2.1 :=
    elongF_ev ((c1.sub c2).eventually (lt_mem_nhds (show 0 < a - 0 by linarith)))
  have m2 : ∀ᶠ p in elongF a, 0 < -p.1 ^ 2 + p.2.2 ^ 2 + q ^ 2 :=
    elongF_ev ((show ContinuousAt (fun p : ℝ × ℝ × ℝ => -p.1 ^ 2 + p.2.2 ^ 2 + q ^ 2) (a, 0, a) by fun_prop).eventually
      (lt_mem_nhds (show 0 < -a ^ 2 + a ^ 2 + q ^ 2 by rw [neg_add_cancel, zero_add]; positivity)))
  have m3 : ∀ᶠ p in elongF a, 0 < p.1 ^ 2 - p.2.2 ^ 2 + q ^ 2 :=
    elongF_ev ((show ContinuousAt (fun p : ℝ × ℝ × ℝ => p.1 ^ 2 - p.2.2 ^ 2 + q ^ 2) (a, 0, a) by fun_prop).eventually
      (lt_mem_nhds (show 0 < a ^ 2 - a ^ 2 + q ^ 2 by rw [sub_self, zero_add]; positivity)))
  filter_upwards [elongF_tri a, e1, e2, e3, e4, m2, m3] with p ht n1 n2 n3 hlt hm2 hm3
  have hI := g2d_elong_identity p.1 p.2.1 p.2.2 q ht.pos1 ht.pos2 ht.pos3 hq n1.symm n3.symm hm2 hm3
  rw [g2dExact_form p.1 p.2.1 p.2.2 q ht hq n1.symm n2.symm n3.symm, g2dElongate, if_pos (by linarith),
    show triM p.2.1 p.2.2 p.1 q = triM p.2.2 p.2.1 p.1 q from by unfold triM; ring]
  linear_combination -hI

end

end Verif
