import Verif.Proofs.TriElong

/-!
# The second-order loop kernel of the velocity divergence for a short second side

Pieces and remainders found by `tools/g2limits` and checked here.
-/

set_option linter.unusedSimpArgs false
set_option linter.unusedVariables false

namespace Verif

noncomputable section

open Real Asymptotics Filter Topology

/-- The polynomials of the constant part of `kernel_gamma2t_elongate` (`src/gamma2t_1loop.c:242-349`). -/
def g2tElong0P (k k3 q : ℕ → ℝ) : ℝ :=
  4*k 16*q 1*(42100*k 6 + 86573*k3 6 - 1473132*k3 4*q 2 - 927150*k3 2*q 4 - 139020*q 6 + 3*k 4*(121079*k3 2 - 512318*q 2) + 3*k
    2*(116030*k3 4 - 680530*k3 2*q 2 - 674877*q 4))/21 - 4*k 10*q 1*(450*k 12*k3 4 - 2475*k3 8*q 8 - 15*k 10*(2033*k3 6 + 234*k3 4*q 2 +
    84*k3 2*q 4 + 63*q 6) - 2*k 8*(9390*k3 8 - 252530*k3 6*q 2 + 80367*k3 4*q 4 - 7560*k3 2*q 6 + 3780*q 8) + k 6*((-17535)*k3 10 + 81190*k3
    8*q 2 + 3892*k3 6*q 4 + 43490*k3 4*q 6 - 2520*k3 2*q 8) + 15*k 4*(3359*k3 8*q 4 + 1514*k3 6*q 6 - 157*k3 4*q 8) - 15*k 2*(1009*k3 8*q 6
    + 438*k3 6*q 8))/k3 4

/-- The polynomials of the part divided by `eps²` of `kernel_gamma2t_elongate` (`src/gamma2t_1loop.c:242-349`). -/
def g2tElong1P (k k3 q : ℕ → ℝ) : ℝ :=
  4*k 14*q 3*(72913*k 6 + 130696*k3 6 + 251538*k3 4*q 2 + 21000*k3 2*q 4 - 7665*q 6 + k 4*((-37530)*k3 2 + 666260*q 2) + k 2*((-334079)*k3
    4 + 196742*k3 2*q 2 + 282415*q 4))/7 + 4*k 8*q 1*(195*k 14*k3 4 - 825*k3 10*q 8 - 5*k 2*k3 8*q 6*(2488*k3 2 + 459*q 2) + 5*k 4*k3 6*q
    4*(6458*k3 4 + 1764*k3 2*q 2 + 405*q 4) - 45*k 12*(659*k3 6 + 134*k3 4*q 2 + 28*k3 2*q 4 + 21*q 6) + k 10*(10245*k3 8 + 245070*k3 6*q 2
    - 93542*k3 4*q 4 + 8820*k3 2*q 6 - 3780*q 8) + 2*k 6*k3 4*(840*k3 8 - 66925*k3 6*q 2 - 46408*k3 4*q 4 - 2055*k3 2*q 6 + 1725*q 8) + k
    8*k3 2*(17535*k3 8 - 81190*k3 6*q 2 - 3892*k3 4*q 4 - 43490*k3 2*q 6 + 2520*q 8))/k3 4

/-- The logarithm of `k`, constant part of `kernel_gamma2t_elongate` (`src/gamma2t_1loop.c:242-349`). -/
def g2tElong0A (k k3 q : ℕ → ℝ) : ℝ :=
  15*k 9*(k 1 - q 1)*(k 1 - q 1)*(k 1 + q 1)*(k 1 + q 1)*((-194)*k 10 + 165*k3 4*q 6 + k 8*(1176*k3 2 + 2297*q 2) + k 6*(306*k3 4 -
    3414*k3 2*q 2 - 2428*q 4) + k 4*((-1307)*k3 4*q 2 - 784*k3 2*q 4 + 157*q 6) + 6*k 2*(214*k3 4*q 4 + 73*k3 2*q 6))*2*(Real.log (abs ((k 1
    + q 1)/(k 1 - q 1))))

/-- The logarithm of `k3`, constant part of `kernel_gamma2t_elongate` (`src/gamma2t_1loop.c:242-349`). -/
def g2tElong0B (k k3 q : ℕ → ℝ) : ℝ :=
  105*k 16*(k3 1 - q 1)*(k3 1 + q 1)*(8*k3 2 + 3*q 2)*(15*k3 8 - 46*k3 6*q 2 + 47*k3 4*q 4 - 8*k3 2*q 6 + k 4*(9*k3 4 + 2*k3 2*q 2 - 3*q
    4) + 8*k 2*(4*k3 6 - 17*k3 4*q 2 + 12*k3 2*q 4 - 3*q 6))*2*(Real.log (abs ((k3 1 + q 1)/(k3 1 - q 1))))/k3 5

/-- The logarithm with `k²-k3²+q²`, constant part of `kernel_gamma2t_elongate` (`src/gamma2t_1loop.c:242-349`). -/
def g2tElong0V (k k3 q : ℕ → ℝ) : ℝ :=
  420*k 19*q 3*(-k3 1 + q 1)*(k3 1 + q 1)*(8*k3 2 + 3*q 2)*((-4)*k 1*(Real.sqrt (q 2*(k 2 - k3 2 + q 2))) + q 1*(4*k 2 - 3*k3 2 + 3*q
    2)*(Real.log ((2*k 2*q 1 - k3 2*q 1 + q 3 + 2*k 1*(Real.sqrt (q 2*(k 2 - k3 2 + q 2))))/(2*k 2*q 1 - k3 2*q 1 + q 3 - 2*k 1*(Real.sqrt
    (q 2*(k 2 - k3 2 + q 2)))))))/((q 2*(k 2 - k3 2 + q 2))^(1.5:ℝ))

/-- The logarithm with `k3²-k²+q²`, constant part of `kernel_gamma2t_elongate` (`src/gamma2t_1loop.c:242-349`). -/
def g2tElong0X (k k3 q : ℕ → ℝ) : ℝ :=
  8640*k 16*k3 3*q 3*(k 2 - q 2)*(k 2 - q 2)*(4*k3 1*(Real.sqrt (q 2*(-k 2 + k3 2 + q 2))) + q 1*(3*k 2 - 4*k3 2 - 3*q 2)*(Real.log
    (-((-(k 2*q 1) + 2*k3 2*q 1 + q 3 + 2*k3 1*(Real.sqrt (q 2*(-k 2 + k3 2 + q 2))))/(k 2*q 1 - 2*k3 2*q 1 - q 3 + 2*k3 1*(Real.sqrt (q
    2*(-k 2 + k3 2 + q 2))))))))/((q 2*(-k 2 + k3 2 + q 2))^(1.5:ℝ))

/-- The logarithm of `k`, part divided by `eps²` of `kernel_gamma2t_elongate` (`src/gamma2t_1loop.c:242-349`). -/
def g2tElong1A (k k3 q : ℕ → ℝ) : ℝ :=
  15*k 7*(k 1 - q 1)*(k 1 - q 1)*(k 1 + q 1)*(k 1 + q 1)*(13*k 12 - 55*k3 6*q 6 - k 10*(1921*k3 2 + 649*q 2) + k 8*(1579*k3 4 + 2913*k3
    2*q 2 + 563*q 4) + k 6*(329*k3 6 - 1759*k3 4*q 2 + 25*k3 2*q 4 + 73*q 6) + k 4*(647*k3 6*q 2 + 333*k3 4*q 4 + 135*k3 2*q 6) - 3*k
    2*(307*k3 6*q 4 + 51*k3 4*q 6))*2*(Real.log (abs ((k 1 + q 1)/(k 1 - q 1))))

/-- The logarithm of `k3`, part divided by `eps²` of `kernel_gamma2t_elongate` (`src/gamma2t_1loop.c:242-349`). -/
def g2tElong1B (k k3 q : ℕ → ℝ) : ℝ :=
  105*k 14*(k3 1 - q 1)*(k3 1 + q 1)*(8*k3 2 + 3*q 2)*(k 6*(k3 4 + 2*k3 2*q 2 - 3*q 4) + 4*k 4*(4*k3 6 - 14*k3 4*q 2 + 13*k3 2*q 4 - 3*q
    6) - 2*k3 4*(k3 6 + k3 2*q 4 - 2*q 6) + k 2*((-15)*k3 8 + 46*k3 6*q 2 - 47*k3 4*q 4 + 8*k3 2*q 6))*2*(Real.log (abs ((k3 1 + q 1)/(k3 1
    - q 1))))/k3 5

/-- The logarithm with `k²-k3²+q²`, part divided by `eps²` of `kernel_gamma2t_elongate` (`src/gamma2t_1loop.c:242-349`). -/
def g2tElong1V (k k3 q : ℕ → ℝ) : ℝ :=
  840*k 17*q 4*(-k3 1 + q 1)*(k3 1 + q 1)*(8*k3 2 + 3*q 2)*(Real.log ((2*k 2*q 1 - k3 2*q 1 + q 3 + 2*k 1*(Real.sqrt (q 2*(k 2 - k3 2 + q
    2))))/(2*k 2*q 1 - k3 2*q 1 + q 3 - 2*k 1*(Real.sqrt (q 2*(k 2 - k3 2 + q 2))))))/(Real.sqrt (q 2*(k 2 - k3 2 + q 2)))

/-- The logarithm with `k3²-k²+q²`, part divided by `eps²` of `kernel_gamma2t_elongate` (`src/gamma2t_1loop.c:242-349`). -/
def g2tElong1X (k k3 q : ℕ → ℝ) : ℝ :=
  17280*k 14*k3 3*q 4*(k 2 - q 2)*(k 2 - q 2)*(Real.log (-((-(k 2*q 1) + 2*k3 2*q 1 + q 3 + 2*k3 1*(Real.sqrt (q 2*(-k 2 + k3 2 + q
    2))))/(k 2*q 1 - 2*k3 2*q 1 - q 3 + 2*k3 1*(Real.sqrt (q 2*(-k 2 + k3 2 + q 2)))))))/(Real.sqrt (q 2*(-k 2 + k3 2 + q 2)))

theorem g2tElong_split (k eps k3 q : ℕ → ℝ) : g2tElongateE k eps k3 q =
    π*(g2tElong0P k k3 q - g2tElong0A k k3 q - g2tElong0B k k3 q + g2tElong0V k k3 q + g2tElong0X k k3 q + (g2tElong1P k k3 q - g2tElong1A k k3 q + g2tElong1B k k3 q - g2tElong1V k k3 q + g2tElong1X k k3 q)/eps 2)/(6.20928e6*k 18*q 5) := rfl

theorem g2tElong0V_eq (k1 k3 q s t : ℝ) (h1 : 0 < k1) (h3 : 0 < k3) (hq : 0 < q) (hmu : 0 < k1 ^ 2 - k3 ^ 2 + q ^ 2) (hy : q ≠ k3)
    (hs : s = Real.sqrt (q ^ 2 * (k1 ^ 2 - k3 ^ 2 + q ^ 2))) (ht : t = triLog (k1 * q) (q ^ 2 * (k1 ^ 2 - k3 ^ 2 + q ^ 2))) :
    g2tElong0V (pw k1) (pw k3) (pw q) = (6209280 * k1 ^ 18 * q ^ 5) * ((k1 * (8 * k3 ^ 4 - 5 * k3 ^ 2 * q ^ 2 - 3 * q ^ 4) / (7392 * q ^ 5)) * (-2 * q ^ 2 * t + q ^ 4 * collA ((k3 - q) * (k3 + q)) (k1 * q) (q ^ 2 * (k1 ^ 2 - k3 ^ 2 + q ^ 2)) q t)) := by
  have hs0 : 0 < s := by rw [hs]; exact Real.sqrt_pos.mpr (by positivity)
  have hm : k1 ^ 2 - k3 ^ 2 + q ^ 2 ≠ 0 := hmu.ne'
  have d1 : k3 - q ≠ 0 := sub_ne_zero.mpr hy.symm
  have d2 : k3 + q ≠ 0 := by positivity
  have e : g2tElong0V (pw k1) (pw k3) (pw q) = 420*k1 ^ 19*q ^ 3*(-k3 + q)*(k3 + q)*(8*k3 ^ 2 + 3*q ^ 2)*((-4)*k1*s + q*(4*k1 ^ 2 - 3*k3 ^ 2 + 3*q ^ 2)*(s * t))/(q ^ 2 * (k1 ^ 2 - k3 ^ 2 + q ^ 2) * s) := by
    simp only [g2tElong0V, pw, pow_one, C01_power]
    rw [rpow_three_half _ (by positivity), collLog k1 k3 q h1 h3 hq hmu hy, ← hs, ← ht]
  rw [e]
  unfold collA
  field_simp
  ring

theorem g2tElong1V_eq (k1 k3 q s t : ℝ) (h1 : 0 < k1) (h3 : 0 < k3) (hq : 0 < q) (hmu : 0 < k1 ^ 2 - k3 ^ 2 + q ^ 2) (hy : q ≠ k3)
    (hs : s = Real.sqrt (q ^ 2 * (k1 ^ 2 - k3 ^ 2 + q ^ 2))) (ht : t = triLog (k1 * q) (q ^ 2 * (k1 ^ 2 - k3 ^ 2 + q ^ 2))) :
    k1 ^ 2 * (-g2tElong1V (pw k1) (pw k3) (pw q)) = (6209280 * k1 ^ 18 * q ^ 5) * ((k1 * (8 * k3 ^ 4 - 5 * k3 ^ 2 * q ^ 2 - 3 * q ^ 4) / (7392 * q ^ 5)) * (q ^ 4 * t)) := by
  have hs0 : 0 < s := by rw [hs]; exact Real.sqrt_pos.mpr (by positivity)
  have hm : k1 ^ 2 - k3 ^ 2 + q ^ 2 ≠ 0 := hmu.ne'
  have d1 : k3 - q ≠ 0 := sub_ne_zero.mpr hy.symm
  have d2 : k3 + q ≠ 0 := by positivity
  have e : g2tElong1V (pw k1) (pw k3) (pw q) = 840*k1 ^ 17*q ^ 4*(-k3 + q)*(k3 + q)*(8*k3 ^ 2 + 3*q ^ 2)*(s * t)/s := by
    simp only [g2tElong1V, pw, pow_one, C01_power]
    rw [collLog k1 k3 q h1 h3 hq hmu hy, ← hs, ← ht]
  rw [e]
  field_simp
  ring

theorem g2tElong0X_eq (k1 k3 q s t : ℝ) (h1 : 0 < k1) (h3 : 0 < k3) (hq : 0 < q) (hmu : 0 < -k1 ^ 2 + k3 ^ 2 + q ^ 2) (hy : q ≠ k1)
    (hs : s = Real.sqrt (q ^ 2 * (-k1 ^ 2 + k3 ^ 2 + q ^ 2))) (ht : t = triLog (k3 * q) (q ^ 2 * (-k1 ^ 2 + k3 ^ 2 + q ^ 2))) :
    g2tElong0X (pw k1) (pw k3) (pw q) = (6209280 * k1 ^ 18 * q ^ 5) * ((3 * k3 ^ 3 * ((k1 - q) * (k1 + q)) ^ 2 / (1078 * k1 ^ 2 * q ^ 5)) * (-2 * q ^ 2 * t + q ^ 4 * collA ((k1 - q) * (k1 + q)) (k3 * q) (q ^ 2 * (-k1 ^ 2 + k3 ^ 2 + q ^ 2)) q t)) := by
  have hs0 : 0 < s := by rw [hs]; exact Real.sqrt_pos.mpr (by positivity)
  have hm : -k1 ^ 2 + k3 ^ 2 + q ^ 2 ≠ 0 := hmu.ne'
  have d1 : k1 - q ≠ 0 := sub_ne_zero.mpr hy.symm
  have d2 : k1 + q ≠ 0 := by positivity
  have e : g2tElong0X (pw k1) (pw k3) (pw q) = 8640*k1 ^ 16*k3 ^ 3*q ^ 3*(k1 ^ 2 - q ^ 2)*(k1 ^ 2 - q ^ 2)*(4*k3*s + q*(3*k1 ^ 2 - 4*k3 ^ 2 - 3*q ^ 2)*(s * t))/(q ^ 2 * (-k1 ^ 2 + k3 ^ 2 + q ^ 2) * s) := by
    simp only [g2tElong0X, pw, pow_one, C01_power]
    rw [rpow_three_half _ (by positivity), collLog' k1 k3 q h1 h3 hq hmu hy, ← hs, ← ht]
  rw [e]
  unfold collA
  field_simp
  ring

theorem g2tElong1X_eq (k1 k3 q s t : ℝ) (h1 : 0 < k1) (h3 : 0 < k3) (hq : 0 < q) (hmu : 0 < -k1 ^ 2 + k3 ^ 2 + q ^ 2) (hy : q ≠ k1)
    (hs : s = Real.sqrt (q ^ 2 * (-k1 ^ 2 + k3 ^ 2 + q ^ 2))) (ht : t = triLog (k3 * q) (q ^ 2 * (-k1 ^ 2 + k3 ^ 2 + q ^ 2))) :
    k1 ^ 2 * (g2tElong1X (pw k1) (pw k3) (pw q)) = (6209280 * k1 ^ 18 * q ^ 5) * ((3 * k3 ^ 3 * ((k1 - q) * (k1 + q)) ^ 2 / (1078 * k1 ^ 2 * q ^ 5)) * (q ^ 4 * t)) := by
  have hs0 : 0 < s := by rw [hs]; exact Real.sqrt_pos.mpr (by positivity)
  have hm : -k1 ^ 2 + k3 ^ 2 + q ^ 2 ≠ 0 := hmu.ne'
  have d1 : k1 - q ≠ 0 := sub_ne_zero.mpr hy.symm
  have d2 : k1 + q ≠ 0 := by positivity
  have e : g2tElong1X (pw k1) (pw k3) (pw q) = 17280*k1 ^ 14*k3 ^ 3*q ^ 4*(k1 ^ 2 - q ^ 2)*(k1 ^ 2 - q ^ 2)*(s * t)/s := by
    simp only [g2tElong1X, pw, pow_one, C01_power]
    rw [collLog' k1 k3 q h1 h3 hq hmu hy, ← hs, ← ht]
  rw [e]
  field_simp
  ring

/-- Part of the coefficient of `LFunc(k1,q)` beyond `kernel_gamma2t_elongate`. -/
def g2tElongTA (k1 k2 k3 q : ℕ → ℝ) : ℝ :=
  ((-(17*k1 12) - 164*k1 10*k2 2 - 801*k1 10*k3 2) + (2189*k1 10 - 11*k1 8*k2 2 + 1281*k1 8*k3 2)*q 2 + (-(6750*k1 8) + 1072*k1 6*k2 2 -
    354*k1 6*k3 2)*q 4 + (7286*k1 6 - 1510*k1 4*k2 2 + 234*k1 4*k3 2)*q 6 + (-(2993*k1 4) + 668*k1 2*k2 2 - 525*k1 2*k3 2)*q 8 + (285*k1 2 -
    55*k2 2 + 165*k3 2)*q 10)/(413952*k1 9*q 5)

set_option maxHeartbeats 1000000 in
theorem g2tElongA_eq (k1 k2 k3 q : ℝ) (h1 : 0 < k1) (h2 : 0 < k2) (h3 : 0 < k3) (hq : 0 < q) :
    (-g2tElong0A (pw k1) (pw k3) (pw q) - k1 ^ 2 / k2 ^ 2 * g2tElong1A (pw k1) (pw k3) (pw q)) / (6209280 * k1 ^ 18 * q ^ 5) =
    (g2tCL1 (pw k1) (pw k2) (pw k3) (pw q) - k2 ^ 2 * g2tElongTA (pw k1) (pw k2) (pw k3) (pw q)) * LFunc k1 q := by
  simp only [g2tElong0A, g2tElong1A, g2tCL1, g2tElongTA, LFunc, pw, pow_one, C01_power]
  generalize Real.log |(k1 + q) / (k1 - q)| = l
  field_simp
  ring

/-- Part of the coefficient of `LFunc(k3,q)` beyond `kernel_gamma2t_elongate`. -/
def g2tElongTB (k1 k2 k3 q : ℕ → ℝ) : ℝ :=
  ((-(72*k1 2*k3 8) + 8*k2 2*k3 8 + 128*k3 10) + (29*k1 2*k3 6 + 11*k2 2*k3 6 - 528*k3 8)*q 2 + (61*k1 2*k3 4 - 37*k2 2*k3 4 + 648*k3 6)*q
    4 + (-(9*k1 2*k3 2) + 9*k2 2*k3 2 - 188*k3 4)*q 6 + (-(9*k1 2) + 9*k2 2 - 96*k3 2)*q 8 + (36)*q 10)/(59136*k1 2*k3 5*q 5)

set_option maxHeartbeats 1000000 in
theorem g2tElongB_eq (k1 k2 k3 q : ℝ) (h1 : 0 < k1) (h2 : 0 < k2) (h3 : 0 < k3) (hq : 0 < q) :
    (-g2tElong0B (pw k1) (pw k3) (pw q) + k1 ^ 2 / k2 ^ 2 * g2tElong1B (pw k1) (pw k3) (pw q)) / (6209280 * k1 ^ 18 * q ^ 5) =
    (g2tCL3 (pw k1) (pw k2) (pw k3) (pw q) - k2 ^ 2 * g2tElongTB (pw k1) (pw k2) (pw k3) (pw q)) * LFunc k3 q := by
  simp only [g2tElong0B, g2tElong1B, g2tCL3, g2tElongTB, LFunc, pw, pow_one, C01_power]
  generalize Real.log |(k3 + q) / (k3 - q)| = l
  field_simp
  ring

/-- Rational part of the exact kernel beyond `kernel_gamma2t_elongate`. -/
def g2tElongTP (k1 k2 k3 q : ℕ → ℝ) : ℝ :=
  ((-(5740*k1 12*k2 8*k3 4) - 595*k1 10*k2 10*k3 4 - 28035*k1 10*k2 8*k3 6 + 6790*k1 8*k2 12*k3 4 - 41160*k1 8*k2 10*k3 6 - 10710*k1 8*k2
    8*k3 8 - 455*k1 6*k2 14*k3 4 + 67235*k1 6*k2 12*k3 6 - 55265*k1 6*k2 10*k3 8 - 11515*k1 6*k2 8*k3 10) + (-(7765*k1 12*k2 6*k3 4) +
    75850*k1 10*k2 8*k3 4 + 8790*k1 10*k2 6*k3 6 - 85245*k1 8*k2 10*k3 4 + 148890*k1 8*k2 8*k3 6 + 53395*k1 8*k2 6*k3 8 + 23040*k1 6*k2
    12*k3 4 - 149980*k1 6*k2 10*k3 6 + 101040*k1 6*k2 8*k3 8 - 14420*k1 6*k2 6*k3 10)*q 2 + (26693*k1 12*k2 4*k3 4 - 138816*k1 10*k2 6*k3 4
    - 5208*k1 10*k2 4*k3 6 + 143957*k1 8*k2 8*k3 4 - 67318*k1 8*k2 6*k3 6 - 80063*k1 8*k2 4*k3 8 - 36034*k1 6*k2 10*k3 4 + 87318*k1 6*k2
    8*k3 6 - 68262*k1 6*k2 6*k3 8 + 45778*k1 6*k2 4*k3 10)*q 4 + (-(22523*k1 12*k2 2*k3 4) + 87382*k1 10*k2 4*k3 4 - 11142*k1 10*k2 2*k3 6 -
    79915*k1 8*k2 6*k3 4 - 35842*k1 8*k2 4*k3 6 + 29437*k1 8*k2 2*k3 8 + 16400*k1 6*k2 8*k3 4 + 18700*k1 6*k2 6*k3 6 - 10144*k1 6*k2 4*k3 8
    - 34172*k1 6*k2 2*k3 10)*q 6 + (-(29849*k1 12*k3 4) + 22355*k1 10*k2 2*k3 4 - 147957*k1 10*k3 6 + 813*k1 8*k2 4*k3 4 - 98410*k1 8*k2
    2*k3 6 - 26187*k1 8*k3 8 + 10713*k1 6*k2 6*k3 4 + 255991*k1 6*k2 4*k3 6 - 229545*k1 6*k2 2*k3 8 - 64807*k1 6*k3 10)*q 8 + (325803*k1
    10*k3 4 - 440180*k1 8*k2 2*k3 4 + 1846659*k1 8*k3 6 + 105856*k1 6*k2 4*k3 4 - 2122344*k1 6*k2 2*k3 6 + 1332864*k1 6*k3 8)*q 10 +
    (1744881*k1 8*k3 4 - 567786*k1 6*k2 2*k3 4 + 7273470*k1 6*k3 6)*q 12 + (26460*k1 8*k3 2 - 26460*k1 6*k2 2*k3 2 - 1476636*k1 6*k3 4 +
    408975*k1 4*k2 2*k3 4 - 28980*k1 4*k3 6)*q 14 + (19845*k1 8 - 19845*k1 6*k2 2 + 185220*k1 6*k3 2 + 912870*k1 4*k3 4 - 204645*k1 2*k2
    2*k3 4 + 148050*k1 2*k3 6)*q 16 + (-(79380*k1 6) - 89775*k1 2*k3 4 + 17325*k2 2*k3 4 - 51975*k3 6)*q 18)/(32598720*k1 8*k3 4*q 14)

set_option maxHeartbeats 2000000 in
theorem g2tElongP_eq (k1 k2 k3 q : ℝ) (h1 : 0 < k1) (h2 : 0 < k2) (h3 : 0 < k3) (hq : 0 < q) :
    (g2tElong0P (pw k1) (pw k3) (pw q) + k1 ^ 2 / k2 ^ 2 * g2tElong1P (pw k1) (pw k3) (pw q)) / (6209280 * k1 ^ 18 * q ^ 5) =
    g2tC0 (pw k1) (pw k2) (pw k3) (pw q) + g2tCL2 (pw k1) (pw k2) (pw k3) (pw q) * (4 * artSum 5 (k2 / q)) - k2 ^ 2 * g2tElongTP (pw k1) (pw k2) (pw k3) (pw q) := by
  simp only [artSum, Finset.sum_range_succ, Finset.sum_range_zero]
  push_cast
  simp only [g2tElong0P, g2tElong1P, g2tC0, g2tCL2, g2tElongTP, pw, pow_one, C01_power]
  field_simp
  ring

theorem g2tCW1_elong (k1 k2 k3 q : ℝ) (h1 : 0 < k1) (h2 : 0 < k2) (hq : 0 < q) :
    g2tCW1 (pw k1) (pw k2) (pw k3) (pw q) = (3 * k3 ^ 3 * ((k1 - q) * (k1 + q)) ^ 2 / (1078 * k1 ^ 2 * q ^ 5)) * (q ^ 4 / k2 ^ 2 - 2 * q ^ 2 + k2 ^ 2) := by
  simp only [g2tCW1, pw, pow_one]
  field_simp
  ring

theorem g2tCW3_elong (k1 k2 k3 q : ℝ) (h2 : 0 < k2) (hq : 0 < q) :
    g2tCW3 (pw k1) (pw k2) (pw k3) (pw q) = (k1 * (8 * k3 ^ 4 - 5 * k3 ^ 2 * q ^ 2 - 3 * q ^ 4) / (7392 * q ^ 5)) * (q ^ 4 / k2 ^ 2 - 2 * q ^ 2 + k2 ^ 2) := by
  simp only [g2tCW3, pw, pow_one]
  field_simp
  ring

/-- What the expanded exact kernel has beyond `kernel_gamma2t_elongate`, without the factor `k2^2`. -/
def g2tElongT (k1 k2 k3 q : ℝ) : ℝ :=
  g2tElongTP (pw k1) (pw k2) (pw k3) (pw q) + g2tElongTA (pw k1) (pw k2) (pw k3) (pw q) * LFunc k1 q + g2tElongTB (pw k1) (pw k2) (pw k3) (pw q) * LFunc k3 q +
    (3 * k3 ^ 3 * ((k1 - q) * (k1 + q)) ^ 2 / (1078 * k1 ^ 2 * q ^ 5)) * ((triLog (k3 * q) (q ^ 2 * (-k1 ^ 2 + k3 ^ 2 + q ^ 2))) + (-2 * q ^ 2 + k2 ^ 2) * collA ((k1 - q) * (k1 + q)) (k3 * q) (q ^ 2 * (-k1 ^ 2 + k3 ^ 2 + q ^ 2)) q (triLog (k3 * q) (q ^ 2 * (-k1 ^ 2 + k3 ^ 2 + q ^ 2)))) +
    (k1 * (8 * k3 ^ 4 - 5 * k3 ^ 2 * q ^ 2 - 3 * q ^ 4) / (7392 * q ^ 5)) * ((triLog (k1 * q) (q ^ 2 * (k1 ^ 2 - k3 ^ 2 + q ^ 2))) + (-2 * q ^ 2 + k2 ^ 2) * collA ((k3 - q) * (k3 + q)) (k1 * q) (q ^ 2 * (k1 ^ 2 - k3 ^ 2 + q ^ 2)) q (triLog (k1 * q) (q ^ 2 * (k1 ^ 2 - k3 ^ 2 + q ^ 2))))

set_option maxHeartbeats 1000000 in
theorem g2t_elong_identity (k1 k2 k3 q : ℝ) (h1 : 0 < k1) (h2 : 0 < k2) (h3 : 0 < k3) (hq : 0 < q) (n1 : q ≠ k1) (n3 : q ≠ k3)
    (mx : 0 < -k1 ^ 2 + k3 ^ 2 + q ^ 2) (mv : 0 < k1 ^ 2 - k3 ^ 2 + q ^ 2) :
    π * (g2tC0 (pw k1) (pw k2) (pw k3) (pw q) + g2tCL1 (pw k1) (pw k2) (pw k3) (pw q) * LFunc k1 q + g2tCL2 (pw k1) (pw k2) (pw k3) (pw q) * (4 * artSum 5 (k2 / q)) + g2tCL3 (pw k1) (pw k2) (pw k3) (pw q) * LFunc k3 q +
      g2tCW1 (pw k1) (pw k2) (pw k3) (pw q) * elongW ((k1 - q) * (k1 + q)) (k3 * q) (q ^ 2 * (-k1 ^ 2 + k3 ^ 2 + q ^ 2)) q k2 +
      g2tCW3 (pw k1) (pw k2) (pw k3) (pw q) * elongW ((k3 - q) * (k3 + q)) (k1 * q) (q ^ 2 * (k1 ^ 2 - k3 ^ 2 + q ^ 2)) q k2) -
      g2tElongateE (pw k1) (pw (k2 / k1)) (pw k3) (pw q) =
    π * (k2 ^ 2 * g2tElongT k1 k2 k3 q) := by
  have a0 := g2tElongA_eq k1 k2 k3 q h1 h2 h3 hq
  have b0 := g2tElongB_eq k1 k2 k3 q h1 h2 h3 hq
  have p0 := g2tElongP_eq k1 k2 k3 q h1 h2 h3 hq
  have wX0 := g2tElong0X_eq k1 k3 q _ _ h1 h3 hq mx n1 rfl rfl
  have wX1 := g2tElong1X_eq k1 k3 q _ _ h1 h3 hq mx n1 rfl rfl
  have wV0 := g2tElong0V_eq k1 k3 q _ _ h1 h3 hq mv n3 rfl rfl
  have wV1 := g2tElong1V_eq k1 k3 q _ _ h1 h3 hq mv n3 rfl rfl
  have f0 (z : ℝ) : (6209280 * k1 ^ 18 * q ^ 5) * z / (6209280 * k1 ^ 18 * q ^ 5) = z := by
    field_simp
  have f1 (z : ℝ) : (6209280 * k1 ^ 18 * q ^ 5) * z / k2 ^ 2 / (6209280 * k1 ^ 18 * q ^ 5) = z / k2 ^ 2 := by
    field_simp
  have vV0 := congrArg (fun z => z / (6209280 * k1 ^ 18 * q ^ 5)) wV0
  have vV1 := congrArg (fun z => z / k2 ^ 2 / (6209280 * k1 ^ 18 * q ^ 5)) wV1
  simp only [f0] at vV0
  simp only [f1] at vV1
  have vX0 := congrArg (fun z => z / (6209280 * k1 ^ 18 * q ^ 5)) wX0
  have vX1 := congrArg (fun z => z / k2 ^ 2 / (6209280 * k1 ^ 18 * q ^ 5)) wX1
  simp only [f0] at vX0
  simp only [f1] at vX1
  rw [g2tCW1_elong k1 k2 k3 q h1 h2 hq, g2tCW3_elong k1 k2 k3 q h2 hq, g2tElong_split, g2tElongT]
  unfold elongW
  have e2 : pw (k2 / k1) 2 = k2 ^ 2 / k1 ^ 2 := by simp only [pw, div_pow]
  have e3 (z : ℝ) : z / (k2 ^ 2 / k1 ^ 2) = k1 ^ 2 / k2 ^ 2 * z := by rw [div_div_eq_mul_div]; ring
  rw [e2, e3]
  have e4 : k2 ^ 2 / k2 ^ 2 = 1 := div_self (by positivity)
  simp only [show ∀ x n, pw x n = x ^ n from fun _ _ => rfl, show (6.20928e6 : ℝ) = 6209280 from by norm_num]
  linear_combination (-π) * (a0 + b0 + p0 + vX0 + vX1 + vV0 + vV1) + π * q ^ 4 * ((3 * k3 ^ 3 * ((k1 - q) * (k1 + q)) ^ 2 / (1078 * k1 ^ 2 * q ^ 5)) * collA ((k1 - q) * (k1 + q)) (k3 * q) (q ^ 2 * (-k1 ^ 2 + k3 ^ 2 + q ^ 2)) q (triLog (k3 * q) (q ^ 2 * (-k1 ^ 2 + k3 ^ 2 + q ^ 2))) + (k1 * (8 * k3 ^ 4 - 5 * k3 ^ 2 * q ^ 2 - 3 * q ^ 4) / (7392 * q ^ 5)) * collA ((k3 - q) * (k3 + q)) (k1 * q) (q ^ 2 * (k1 ^ 2 - k3 ^ 2 + q ^ 2)) q (triLog (k1 * q) (q ^ 2 * (k1 ^ 2 - k3 ^ 2 + q ^ 2)))) * e4

/-- `g2tCL2` times `k2^9`. -/
def g2tCL2N (k1 k2 k3 q : ℕ → ℝ) : ℝ :=
  ((-(164*k1 6*k2 10) - 17*k1 4*k2 12 - 801*k1 4*k2 10*k3 2 + 194*k1 2*k2 14 - 1176*k1 2*k2 12*k3 2 - 306*k1 2*k2 10*k3 4 - 13*k2 16 +
    1921*k2 14*k3 2 - 1579*k2 12*k3 4 - 329*k2 10*k3 6) + (-(11*k1 6*k2 8) + 2189*k1 4*k2 10 + 1281*k1 4*k2 8*k3 2 - 2685*k1 2*k2 12 +
    5766*k1 2*k2 10*k3 2 + 1919*k1 2*k2 8*k3 4 + 675*k2 14 - 6755*k2 12*k3 2 + 4917*k2 10*k3 4 + 11*k2 8*k3 6)*q 2 + (1072*k1 6*k2 6 -
    6750*k1 4*k2 8 - 354*k1 4*k2 6*k3 2 + 7216*k1 2*k2 10 - 7220*k1 2*k2 8*k3 2 - 4204*k1 2*k2 6*k3 4 - 1874*k2 12 + 7722*k2 10*k3 2 -
    5430*k2 8*k3 4 + 1886*k2 6*k3 6)*q 4 + (-(1510*k1 6*k2 4) + 7286*k1 4*k2 6 + 234*k1 4*k2 4*k3 2 - 7310*k1 2*k2 8 + 1408*k1 2*k2 6*k3 2 +
    3710*k1 2*k2 4*k3 4 + 1702*k2 10 - 2998*k2 8*k3 2 + 2578*k2 6*k3 4 - 2434*k2 4*k3 6)*q 6 + (668*k1 6*k2 2 - 2993*k1 4*k2 4 - 525*k1 4*k2
    2*k3 2 + 2742*k1 2*k2 6 + 1660*k1 2*k2 4*k3 2 - 954*k1 2*k2 2*k3 4 - 417*k2 8 + 245*k2 6*k3 2 - 639*k2 4*k3 4 + 811*k2 2*k3 6)*q 8 +
    (-(55*k1 6) + 285*k1 4*k2 2 + 165*k1 4*k3 2 - 157*k1 2*k2 4 - 438*k1 2*k2 2*k3 2 - 165*k1 2*k3 4 - 73*k2 6 - 135*k2 4*k3 2 + 153*k2 2*k3
    4 + 55*k3 6)*q 10)/(413952*k1 2*q 5)

theorem g2tCL2N_eq (k1 k2 k3 q : ℝ) (h1 : 0 < k1) (h2 : 0 < k2) (h3 : 0 < k3) (hq : 0 < q) :
    g2tCL2 (pw k1) (pw k2) (pw k3) (pw q) * k2 ^ 11 = g2tCL2N (pw k1) (pw k2) (pw k3) (pw q) * k2 ^ 2 := by
  simp only [g2tCL2, g2tCL2N, pw, pow_one]
  field_simp
  try ring

/-- `g2tCW2` divided by `k2`. -/
def g2tCW2N (k1 k3 q : ℝ) : ℝ := (k1 ^ 2 - q ^ 2) ^ 2 * (8 * k3 ^ 4 - 5 * k3 ^ 2 * q ^ 2 - 3 * q ^ 4) / (7392 * k1 ^ 2 * q ^ 5)

theorem g2tCW2N_eq (k1 k2 k3 q : ℝ) (h1 : 0 < k1) (hq : 0 < q) :
    g2tCW2 (pw k1) (pw k2) (pw k3) (pw q) * k2 = g2tCW2N k1 k3 q * k2 ^ 2 := by
  simp only [g2tCW2, g2tCW2N, pw, pow_one]
  field_simp
  ring

set_option maxHeartbeats 1000000 in
theorem g2tCL2N_elong (a q : ℝ) (ha : 0 < a) (hq : 0 < q) :
    ContinuousAt (fun p : ℝ × ℝ × ℝ => g2tCL2N (pw p.1) (pw p.2.1) (pw p.2.2) (pw q)) (a, 0, a) := by
  simp only [g2tCL2N, pw]
  exact ContinuousAt.div (by fun_prop) (by fun_prop) (by positivity)

set_option maxHeartbeats 1000000 in
theorem g2tElongTP_elong (a q : ℝ) (ha : 0 < a) (hq : 0 < q) :
    ContinuousAt (fun p : ℝ × ℝ × ℝ => g2tElongTP (pw p.1) (pw p.2.1) (pw p.2.2) (pw q)) (a, 0, a) := by
  simp only [g2tElongTP, pw]
  exact ContinuousAt.div (by fun_prop) (by fun_prop) (by positivity)

set_option maxHeartbeats 1000000 in
theorem g2tElongTA_elong (a q : ℝ) (ha : 0 < a) (hq : 0 < q) :
    ContinuousAt (fun p : ℝ × ℝ × ℝ => g2tElongTA (pw p.1) (pw p.2.1) (pw p.2.2) (pw q)) (a, 0, a) := by
  simp only [g2tElongTA, pw]
  exact ContinuousAt.div (by fun_prop) (by fun_prop) (by positivity)

set_option maxHeartbeats 1000000 in
theorem g2tElongTB_elong (a q : ℝ) (ha : 0 < a) (hq : 0 < q) :
    ContinuousAt (fun p : ℝ × ℝ × ℝ => g2tElongTB (pw p.1) (pw p.2.1) (pw p.2.2) (pw q)) (a, 0, a) := by
  simp only [g2tElongTB, pw]
  exact ContinuousAt.div (by fun_prop) (by fun_prop) (by positivity)

theorem g2tElongT_cont (a q : ℝ) (ha : 0 < a) (hq : 0 < q) (n : q ≠ a) :
    ContinuousAt (fun p : ℝ × ℝ × ℝ => g2tElongT p.1 p.2.1 p.2.2 q) (a, 0, a) := by
  have c1 : ContinuousAt (fun p : ℝ × ℝ × ℝ => p.1) (a, 0, a) := by fun_prop
  have c3 : ContinuousAt (fun p : ℝ × ℝ × ℝ => p.2.2) (a, 0, a) := by fun_prop
  obtain ⟨ax, tx⟩ := elong_cont a q (fun p => p.2.2) (fun p => p.1) ha hq n c3 c1 rfl rfl
    (fun p => q ^ 2 * (-p.1 ^ 2 + p.2.2 ^ 2 + q ^ 2)) (fun p => by ring)
  obtain ⟨av, tv⟩ := elong_cont a q (fun p => p.1) (fun p => p.2.2) ha hq n c1 c3 rfl rfl
    (fun p => q ^ 2 * (p.1 ^ 2 - p.2.2 ^ 2 + q ^ 2)) (fun p => rfl)
  have l1 := cont_LFunc q _ _ c1 ha hq n
  have l3 := cont_LFunc q _ _ c3 ha hq n
  have wx : ContinuousAt (fun p : ℝ × ℝ × ℝ => 3 * p.2.2 ^ 3 * ((p.1 - q) * (p.1 + q)) ^ 2 / (1078 * p.1 ^ 2 * q ^ 5)) (a, 0, a) :=
    ContinuousAt.div (by fun_prop) (by fun_prop) (by positivity)
  have wv : ContinuousAt (fun p : ℝ × ℝ × ℝ => p.1 * (8 * p.2.2 ^ 4 - 5 * p.2.2 ^ 2 * q ^ 2 - 3 * q ^ 4) / (7392 * q ^ 5)) (a, 0, a) :=
    ContinuousAt.div (by fun_prop) (by fun_prop) (by positivity)
  have e : ContinuousAt (fun p : ℝ × ℝ × ℝ => (-2 * q ^ 2 + p.2.1 ^ 2 : ℝ)) (a, 0, a) := by fun_prop
  unfold g2tElongT
  exact ((((g2tElongTP_elong a q ha hq).add ((g2tElongTA_elong a q ha hq).mul l1)).add ((g2tElongTB_elong a q ha hq).mul l3)).add
    (wx.mul (tx.add (e.mul ax)))).add (wv.mul (tv.add (e.mul av)))

/-- **As the second side goes to zero**, the exact kernel differs from the one used by the code at order `k2^2`. -/
theorem g2t_elong (a q : ℝ) (ha : 0 < a) (hq : 0 < q) (n : q ≠ a) :
    (fun p : ℝ × ℝ × ℝ => g2tExact p.1 p.2.1 p.2.2 q - g2tElongate p.1 p.2.1 p.2.2 q) =O[elongF a] fun p => p.2.1 ^ 2 := by
  have c1 : ContinuousAt (fun p : ℝ × ℝ × ℝ => p.1) (a, 0, a) := by fun_prop
  have c2 : ContinuousAt (fun p : ℝ × ℝ × ℝ => p.2.1) (a, 0, a) := by fun_prop
  have c3 : ContinuousAt (fun p : ℝ × ℝ × ℝ => p.2.2) (a, 0, a) := by fun_prop
  have r0 := elong_L2 a q hq
  have r2 := elong_W2 a q ha hq n
  have rx := elong_W a q (fun p => p.2.2) (fun p => p.1) ha hq n c3 c1 rfl rfl
    (fun p => q ^ 2 * (-p.1 ^ 2 + p.2.2 ^ 2 + q ^ 2)) (fun p => by ring)
  have rv := elong_W a q (fun p => p.1) (fun p => p.2.2) ha hq n c1 c3 rfl rfl
    (fun p => q ^ 2 * (p.1 ^ 2 - p.2.2 ^ 2 + q ^ 2)) (fun p => rfl)
  have cw2 : ContinuousAt (fun p : ℝ × ℝ × ℝ => g2tCW2N p.1 p.2.2 q) (a, 0, a) := by
    unfold g2tCW2N
    exact ContinuousAt.div (by fun_prop) (by fun_prop) (by positivity)
  have wx : ContinuousAt (fun p : ℝ × ℝ × ℝ => 3 * p.2.2 ^ 3 * ((p.1 - q) * (p.1 + q)) ^ 2 / (1078 * p.1 ^ 2 * q ^ 5) * (q ^ 4 - 2 * q ^ 2 * p.2.1 ^ 2 + p.2.1 ^ 4)) (a, 0, a) :=
    (ContinuousAt.div (by fun_prop) (by fun_prop) (by positivity)).mul (by fun_prop)
  have wv : ContinuousAt (fun p : ℝ × ℝ × ℝ => p.1 * (8 * p.2.2 ^ 4 - 5 * p.2.2 ^ 2 * q ^ 2 - 3 * q ^ 4) / (7392 * q ^ 5) * (q ^ 4 - 2 * q ^ 2 * p.2.1 ^ 2 + p.2.1 ^ 4)) (a, 0, a) :=
    (ContinuousAt.div (by fun_prop) (by fun_prop) (by positivity)).mul (by fun_prop)
  have k2 := isBigO_refl (fun p : ℝ × ℝ × ℝ => p.2.1 ^ 2) (elongF a)
  have s0 := (elongF_one (g2tCL2N_elong a q ha hq)).mul k2
  have s2 := (elongF_one cw2).mul k2
  have sx := (elongF_one wx).mul k2
  have sv := (elongF_one wv).mul k2
  have s4 := (elongF_one (g2tElongT_cont a q ha hq n)).mul k2
  simp only [one_mul] at s0 s2 sx sv s4
  have t0 : (fun p : ℝ × ℝ × ℝ => g2tCL2 (pw p.1) (pw p.2.1) (pw p.2.2) (pw q) * (LFunc p.2.1 q - 4 * artSum 5 (p.2.1 / q))) =O[elongF a] fun p => p.2.1 ^ 2 := by
    refine ((isBigO_refl _ _).mul r0).trans (s0.congr' ?_ EventuallyEq.rfl)
    filter_upwards [elongF_tri a] with p ht
    exact (g2tCL2N_eq _ _ _ _ ht.pos1 ht.pos2 ht.pos3 hq).symm
  have t2 : (fun p : ℝ × ℝ × ℝ => g2tCW2 (pw p.1) (pw p.2.1) (pw p.2.2) (pw q) * triLog (p.2.1 * q) (triM p.1 p.2.2 p.2.1 q)) =O[elongF a] fun p => p.2.1 ^ 2 := by
    refine ((isBigO_refl _ _).mul r2).trans (s2.congr' ?_ EventuallyEq.rfl)
    filter_upwards [elongF_tri a] with p ht
    exact (g2tCW2N_eq _ _ _ _ ht.pos1 hq).symm
  have tx : (fun p : ℝ × ℝ × ℝ => g2tCW1 (pw p.1) (pw p.2.1) (pw p.2.2) (pw q) * (triLog (p.2.2 * q) (triM p.1 p.2.1 p.2.2 q) -
      elongW ((p.1 - q) * (p.1 + q)) (p.2.2 * q) (q ^ 2 * (-p.1 ^ 2 + p.2.2 ^ 2 + q ^ 2)) q p.2.1)) =O[elongF a] fun p => p.2.1 ^ 2 := by
    refine ((isBigO_refl _ _).mul rx).trans (sx.congr' ?_ EventuallyEq.rfl)
    filter_upwards [elongF_tri a] with p ht
    rw [g2tCW1_elong _ _ _ _ ht.pos1 ht.pos2 hq]
    have := ht.pos2.ne'
    have := ht.pos1.ne'
    field_simp
  have tv : (fun p : ℝ × ℝ × ℝ => g2tCW3 (pw p.1) (pw p.2.1) (pw p.2.2) (pw q) * (triLog (p.1 * q) (triM p.2.2 p.2.1 p.1 q) -
      elongW ((p.2.2 - q) * (p.2.2 + q)) (p.1 * q) (q ^ 2 * (p.1 ^ 2 - p.2.2 ^ 2 + q ^ 2)) q p.2.1)) =O[elongF a] fun p => p.2.1 ^ 2 := by
    refine ((isBigO_refl _ _).mul rv).trans (sv.congr' ?_ EventuallyEq.rfl)
    filter_upwards [elongF_tri a] with p ht
    rw [g2tCW3_elong _ _ _ _ ht.pos2 hq]
    have := ht.pos2.ne'
    field_simp
  refine (((((t0.add tx).add t2).add tv).add s4).const_mul_left π).congr' ?_ EventuallyEq.rfl
  have e1 : ∀ᶠ p in elongF a, p.1 ≠ q := elongF_ev (c1.eventually_ne n.symm)
  have e2 : ∀ᶠ p in elongF a, p.2.1 ≠ q := elongF_ev (c2.eventually_ne hq.ne)
  have e3 : ∀ᶠ p in elongF a, p.2.2 ≠ q := elongF_ev (c3.eventually_ne n.symm)
  have e4 : ∀ᶠ p in elongF a, 0 < p.1 - p.2.1 :=
    elongF_ev ((c1.sub c2).eventually (lt_mem_nhds (show 0 < a - 0 by linarith)))
  have m2 : ∀ᶠ p in elongF a, 0 < -p.1 ^ 2 + p.2.2 ^ 2 + q ^ 2 :=
    elongF_ev ((show ContinuousAt (fun p : ℝ × ℝ × ℝ => -p.1 ^ 2 + p.2.2 ^ 2 + q ^ 2) (a, 0, a) by fun_prop).eventually
      (lt_mem_nhds (show 0 < -a ^ 2 + a ^ 2 + q ^ 2 by rw [neg_add_cancel, zero_add]; positivity)))
  have m3 : ∀ᶠ p in elongF a, 0 < p.1 ^ 2 - p.2.2 ^ 2 + q ^ 2 :=
    elongF_ev ((show ContinuousAt (fun p : ℝ × ℝ × ℝ => p.1 ^ 2 - p.2.2 ^ 2 + q ^ 2) (a, 0, a) by fun_prop).eventually
      (lt_mem_nhds (show 0 < a ^ 2 - a ^ 2 + q ^ 2 by rw [sub_self, zero_add]; positivity)))
  filter_upwards [elongF_tri a, e1, e2, e3, e4, m2, m3] with p ht n1 n2 n3 hlt hm2 hm3
  have hI := g2t_elong_identity p.1 p.2.1 p.2.2 q ht.pos1 ht.pos2 ht.pos3 hq n1.symm n3.symm hm2 hm3
  rw [g2tExact_form p.1 p.2.1 p.2.2 q ht hq n1.symm n2.symm n3.symm, g2tElongate, if_pos (by linarith),
    show triM p.2.1 p.2.2 p.1 q = triM p.2.2 p.2.1 p.1 q from by unfold triM; ring]
  linear_combination -hI

end

end Verif
