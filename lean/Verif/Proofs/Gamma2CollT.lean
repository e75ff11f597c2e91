import Verif.Proofs.TriColl

/-!
# The second-order loop kernel of the velocity divergence for a short third side

Pieces and remainders found by `tools/g2limits` and checked here.
-/

set_option linter.unusedSimpArgs false
set_option linter.unusedVariables false

namespace Verif

noncomputable section

open Real Asymptotics Filter Topology

/-- The polynomials of term 0 of `kernel_gamma2t_coll` (`src/gamma2t_1loop.c:351-493`). -/
def g2tColl0P (k1 k2 q : ℕ → ℝ) : ℝ :=
  (-84)*k1 7*k2 7*q 3*(161*k1 6 + 161*k2 6 + 1064*k2 4*q 2 - 465*k2 2*q 4 + 60*q 6 + k1 4*((-281)*k2 2 + 1064*q 2) - k1 2*(281*k2 4 +
    1528*k2 2*q 2 + 465*q 4)) + 4*k1 1*k2 1*q 1*(195*k1 14*k2 6 + 825*k2 12*q 8 - 5*k1 2*k2 10*q 6*(1949*k2 2 + 855*q 2) + 5*k1 4*k2 8*q
    4*(3895*k2 4 + 8694*k2 2*q 2 + 471*q 4) + k1 10*k2 2*(510*k2 8 + 3510*k2 6*q 2 - 93542*k2 4*q 4 + 43470*k2 2*q 6 - 4275*q 8) - 5*k1
    12*(90*k2 8 + 1206*k2 6*q 2 - 3895*k2 4*q 4 + 1949*k2 2*q 6 - 165*q 8) + k1 8*k2 4*((-450)*k2 8 + 3510*k2 6*q 2 + 160734*k2 4*q 4 -
    43490*k2 2*q 6 + 2355*q 8) + k1 6*k2 6*(195*k2 8 - 6030*k2 6*q 2 - 93542*k2 4*q 4 - 43490*k2 2*q 6 + 3450*q 8))

/-- The logarithm of `k1` of term 0 of `kernel_gamma2t_coll` (`src/gamma2t_1loop.c:351-493`). -/
def g2tColl0A (k1 k2 q : ℕ → ℝ) : ℝ :=
  15*k2 7*(k1 1 - q 1)*(k1 1 - q 1)*(k1 1 + q 1)*(k1 1 + q 1)*(13*k1 12 + 55*k2 6*q 6 - k1 10*(194*k2 2 + 649*q 2) + k1 8*(17*k2 4 +
    2297*k2 2*q 2 + 563*q 4) + k1 6*(164*k2 6 - 2155*k2 4*q 2 - 2428*k2 2*q 4 + 73*q 6) + k1 4*(339*k2 6*q 2 + 2423*k2 4*q 4 + 157*k2 2*q 6)
    - 3*k1 2*(186*k2 6*q 4 + 95*k2 4*q 6))*2*(Real.log (abs ((k1 1 + q 1)/(k1 1 - q 1))))

/-- The logarithm of `k2` of term 0 of `kernel_gamma2t_coll` (`src/gamma2t_1loop.c:351-493`). -/
def g2tColl0B (k1 k2 q : ℕ → ℝ) : ℝ :=
  15*k1 7*(k2 1 - q 1)*(k2 1 - q 1)*(k2 1 + q 1)*(k2 1 + q 1)*(k1 6*(164*k2 6 + 339*k2 4*q 2 - 558*k2 2*q 4 + 55*q 6) + k2 6*(13*k2 6 -
    649*k2 4*q 2 + 563*k2 2*q 4 + 73*q 6) + k1 4*(17*k2 8 - 2155*k2 6*q 2 + 2423*k2 4*q 4 - 285*k2 2*q 6) + k1 2*((-194)*k2 10 + 2297*k2 8*q
    2 - 2428*k2 6*q 4 + 157*k2 4*q 6))*2*(Real.log (abs ((k2 1 + q 1)/(k2 1 - q 1))))

/-- The logarithm with `k1²-k2²+q²` of term 0 of `kernel_gamma2t_coll` (`src/gamma2t_1loop.c:351-493`). -/
def g2tColl0W3 (k1 k2 q : ℕ → ℝ) : ℝ :=
  2520*k1 10*k2 7*(k2 1 - q 1)*(k2 1 - q 1)*q 4*(k2 1 + q 1)*(k2 1 + q 1)*(Real.log ((2*k1 2*q 1 - k2 2*q 1 + q 3 + 2*k1 1*(Real.sqrt (q
    2*(k1 2 - k2 2 + q 2))))/(2*k1 2*q 1 - k2 2*q 1 + q 3 - 2*k1 1*(Real.sqrt (q 2*(k1 2 - k2 2 + q 2))))))/(Real.sqrt (q 2*(k1 2 - k2 2 + q
    2)))

/-- The logarithm with `k2²-k1²+q²` of term 0 of `kernel_gamma2t_coll` (`src/gamma2t_1loop.c:351-493`). -/
def g2tColl0W2 (k1 k2 q : ℕ → ℝ) : ℝ :=
  2520*k1 7*k2 10*(k1 1 - q 1)*(k1 1 - q 1)*q 4*(k1 1 + q 1)*(k1 1 + q 1)*(Real.log (-((-(k1 2*q 1) + 2*k2 2*q 1 + q 3 + 2*k2 1*(Real.sqrt
    (q 2*(-k1 2 + k2 2 + q 2))))/(k1 2*q 1 - 2*k2 2*q 1 - q 3 + 2*k2 1*(Real.sqrt (q 2*(-k1 2 + k2 2 + q 2)))))))/(Real.sqrt (q 2*(-k1 2 +
    k2 2 + q 2)))

theorem g2tColl0_split (k1 k2 eps q : ℕ → ℝ) : g2tColl0 k1 k2 eps q =
    π*(g2tColl0P k1 k2 q - g2tColl0A k1 k2 q - g2tColl0B k1 k2 q - g2tColl0W3 k1 k2 q - g2tColl0W2 k1 k2 q)/(6.20928e6*k1 9*k2 9*q 5) := rfl

/-- The polynomials of term 1 of `kernel_gamma2t_coll` (`src/gamma2t_1loop.c:351-493`). -/
def g2tColl1P (k1 k2 q : ℕ → ℝ) : ℝ :=
  8*k1 7*k2 9*q 1*(92*k1 6 + 92*k2 6 + 29992*k2 4*q 2 + 9968*k2 2*q 4 - 945*q 6 + 4*k1 4*(607*k2 2 + 7498*q 2) + 4*k1 2*(607*k2 4 -
    16284*k2 2*q 2 + 2492*q 4)) - 4*k1 1*k2 3*q 1*(29655*k1 12*k2 6 + 2475*k2 10*q 8 - 30*k1 2*k2 8*q 6*(235*k2 2 + 219*q 2) + 15*k1 4*k2
    6*q 4*(92*k2 4 + 1514*k2 2*q 2 - 135*q 4) + k1 6*k2 4*(29655*k2 8 - 245070*k2 6*q 2 + 3892*k2 4*q 4 + 4110*k2 2*q 6 - 2025*q 8) - 15*k1
    10*(2033*k2 8 + 16338*k2 6*q 2 - 92*k2 4*q 4 + 470*k2 2*q 6 - 165*q 8) + k1 8*((-30495)*k2 10 + 505060*k2 8*q 2 + 3892*k2 6*q 4 +
    22710*k2 4*q 6 - 6570*k2 2*q 8))

/-- The logarithm of `k1` of term 1 of `kernel_gamma2t_coll` (`src/gamma2t_1loop.c:351-493`). -/
def g2tColl1A (k1 k2 q : ℕ → ℝ) : ℝ :=
  15*k2 9*(k1 1 - q 1)*(k1 1 - q 1)*(k1 1 + q 1)*(k1 1 + q 1)*((-1921)*k1 10 - 165*k2 4*q 6 + 3*k1 8*(392*k2 2 + 971*q 2) + k1 6*(801*k2 4
    - 3414*k2 2*q 2 + 25*q 4) + k1 4*(321*k2 4*q 2 - 784*k2 2*q 4 + 135*q 6) + 3*k1 2*(65*k2 4*q 4 + 146*k2 2*q 6))*2*(Real.log (abs ((k1 1
    + q 1)/(k1 1 - q 1))))

/-- The logarithm of `k2` of term 1 of `kernel_gamma2t_coll` (`src/gamma2t_1loop.c:351-493`). -/
def g2tColl1B (k1 k2 q : ℕ → ℝ) : ℝ :=
  15*k1 7*k2 2*(k2 1 - q 1)*(k2 1 - q 1)*(k2 1 + q 1)*(k2 1 + q 1)*((-1921)*k2 10 + 2913*k2 8*q 2 + 25*k2 6*q 4 + 135*k2 4*q 6 + 3*k1
    4*(267*k2 6 + 107*k2 4*q 2 + 65*k2 2*q 4 - 55*q 6) + 2*k1 2*(588*k2 8 - 1707*k2 6*q 2 - 392*k2 4*q 4 + 219*k2 2*q 6))*2*(Real.log (abs
    ((k2 1 + q 1)/(k2 1 - q 1))))

/-- The logarithm with `k1²-k2²+q²` of term 1 of `kernel_gamma2t_coll` (`src/gamma2t_1loop.c:351-493`). -/
def g2tColl1W3 (k1 k2 q : ℕ → ℝ) : ℝ :=
  420*k1 10*k2 9*(k2 1 - q 1)*(k2 1 - q 1)*q 3*(k2 1 + q 1)*(k2 1 + q 1)*(12*k1 1*(Real.sqrt (q 2*(k1 2 - k2 2 + q 2))) + q 1*(10*k1 2 +
    13*(-k2 2 + q 2))*(Real.log ((2*k1 2*q 1 - k2 2*q 1 + q 3 + 2*k1 1*(Real.sqrt (q 2*(k1 2 - k2 2 + q 2))))/(2*k1 2*q 1 - k2 2*q 1 + q 3 -
    2*k1 1*(Real.sqrt (q 2*(k1 2 - k2 2 + q 2)))))))/((q 2*(k1 2 - k2 2 + q 2))^(1.5:ℝ))

/-- The logarithm with `k2²-k1²+q²` of term 1 of `kernel_gamma2t_coll` (`src/gamma2t_1loop.c:351-493`). -/
def g2tColl1W2 (k1 k2 q : ℕ → ℝ) : ℝ :=
  420*k1 7*k2 12*(k1 1 - q 1)*(k1 1 - q 1)*q 3*(k1 1 + q 1)*(k1 1 + q 1)*(12*k2 1*(Real.sqrt (q 2*(-k1 2 + k2 2 + q 2))) + ((-13)*k1 2*q 1
    + 10*k2 2*q 1 + 13*q 3)*(Real.log (-((-(k1 2*q 1) + 2*k2 2*q 1 + q 3 + 2*k2 1*(Real.sqrt (q 2*(-k1 2 + k2 2 + q 2))))/(k1 2*q 1 - 2*k2
    2*q 1 - q 3 + 2*k2 1*(Real.sqrt (q 2*(-k1 2 + k2 2 + q 2))))))))/((q 2*(-k1 2 + k2 2 + q 2))^(1.5:ℝ))

theorem g2tColl1_split (k1 k2 eps q : ℕ → ℝ) : g2tColl1 k1 k2 eps q =
    eps 2*π*(g2tColl1P k1 k2 q - g2tColl1A k1 k2 q - g2tColl1B k1 k2 q - g2tColl1W3 k1 k2 q - g2tColl1W2 k1 k2 q)/(6.20928e6*k1 9*k2 9*q 5) := rfl

/-- The polynomials of term 2 of `kernel_gamma2t_coll` (`src/gamma2t_1loop.c:351-493`). -/
def g2tColl2P (k1 k2 q : ℕ → ℝ) : ℝ :=
  69120*k1 7*k2 11*q 1*(k1 2 - q 2)*(k2 2 - q 2) + 4*k1 7*k2 11*(688*k1 6 + 688*k2 6 - 37728*k2 4*q 2 - 51509*k2 2*q 4 + 3668*q 6 - 32*k1
    4*(172*k2 2 + 1179*q 2) + k1 2*((-5504)*k2 4 + 90944*k2 2*q 2 - 51509*q 4))/q 1 + 4*k1 1*k2 5*q 1*(10245*k1 10*k2 6 + 2475*k2 8*q 8 + k1
    4*((-50385)*k2 8*q 4 + 8820*k2 6*q 6) + k1 6*k2 2*(10245*k2 8 - 81190*k2 6*q 2 - 92816*k2 4*q 4 + 8820*k2 2*q 6 - 2295*q 8) + 5*k1
    8*(3756*k2 8 - 16238*k2 6*q 2 - 10077*k2 4*q 4 + 3027*k2 2*q 6 + 495*q 8) + 15*k1 2*(1009*k2 8*q 6 - 153*k2 6*q 8))

/-- The logarithm of `k1` of term 2 of `kernel_gamma2t_coll` (`src/gamma2t_1loop.c:351-493`). -/
def g2tColl2A (k1 k2 q : ℕ → ℝ) : ℝ :=
  15*k2 11*(k1 1 - q 1)*(k1 1 - q 1)*(k1 1 + q 1)*(k1 1 + q 1)*(1579*k1 8 + 165*k2 2*q 6 + k1 6*(306*k2 2 - 1759*q 2) + k1 4*((-1307)*k2
    2*q 2 + 333*q 4) + 3*k1 2*(428*k2 2*q 4 - 51*q 6))*2*(Real.log (abs ((k1 1 + q 1)/(k1 1 - q 1))))

/-- The logarithm of `k2` of term 2 of `kernel_gamma2t_coll` (`src/gamma2t_1loop.c:351-493`). -/
def g2tColl2B (k1 k2 q : ℕ → ℝ) : ℝ :=
  15*k1 7*k2 4*(k2 1 - q 1)*(k2 1 - q 1)*(k2 1 + q 1)*(k2 1 + q 1)*(1579*k2 8 - 1759*k2 6*q 2 + 333*k2 4*q 4 - 153*k2 2*q 6 + k1 2*(306*k2
    6 - 1307*k2 4*q 2 + 1284*k2 2*q 4 + 165*q 6))*2*(Real.log (abs ((k2 1 + q 1)/(k2 1 - q 1))))

/-- The logarithm with `k1²-k2²+q²` of term 2 of `kernel_gamma2t_coll` (`src/gamma2t_1loop.c:351-493`). -/
def g2tColl2W3 (k1 k2 q : ℕ → ℝ) : ℝ :=
  105*k1 10*k2 11*(power (k2 1 - q 1) 6)*q 1*(power (k2 1 + q 1) 6)*(Real.sqrt (q 2*(k1 2 - k2 2 + q 2)))*((-4)*k1 1*(Real.sqrt (q 2*(k1 2
    - k2 2 + q 2)))*(26*k1 2 + 35*(-k2 2 + q 2)) + q 1*(64*k1 4 - 108*k1 2*(k2 2 - q 2) + 35*(k2 2 - q 2)*(k2 2 - q 2))*(Real.log ((2*k1 2*q
    1 - k2 2*q 1 + q 3 + 2*k1 1*(Real.sqrt (q 2*(k1 2 - k2 2 + q 2))))/(2*k1 2*q 1 - k2 2*q 1 + q 3 - 2*k1 1*(Real.sqrt (q 2*(k1 2 - k2 2 +
    q 2)))))))/(power (k1 2 - k2 2 + q 2) 3*(power (-(k2 2*q 1) + q 3) 4))

/-- The logarithm with `k2²-k1²+q²` of term 2 of `kernel_gamma2t_coll` (`src/gamma2t_1loop.c:351-493`). -/
def g2tColl2W2 (k1 k2 q : ℕ → ℝ) : ℝ :=
  105*k1 7*k2 14*(power (k1 1 - q 1) 6)*q 1*(power (k1 1 + q 1) 6)*(Real.sqrt (q 2*(-k1 2 + k2 2 + q 2)))*((-4)*k2 1*(Real.sqrt (q 2*(-k1
    2 + k2 2 + q 2)))*((-35)*k1 2 + 26*k2 2 + 35*q 2) + q 1*(35*k1 4 + 64*k2 4 + 108*k2 2*q 2 + 35*q 4 - 2*k1 2*(54*k2 2 + 35*q
    2))*(Real.log (-((-(k1 2*q 1) + 2*k2 2*q 1 + q 3 + 2*k2 1*(Real.sqrt (q 2*(-k1 2 + k2 2 + q 2))))/(k1 2*q 1 - 2*k2 2*q 1 - q 3 + 2*k2
    1*(Real.sqrt (q 2*(-k1 2 + k2 2 + q 2))))))))/(power (-k1 2 + k2 2 + q 2) 3*(power (-(k1 2*q 1) + q 3) 4))

theorem g2tColl2_split (k1 k2 eps q : ℕ → ℝ) : g2tColl2 k1 k2 eps q =
    eps 4*π*(g2tColl2P k1 k2 q - g2tColl2A k1 k2 q - g2tColl2B k1 k2 q + g2tColl2W3 k1 k2 q + g2tColl2W2 k1 k2 q)/(6.20928e6*k1 9*k2 9*q 5) := rfl

theorem g2tColl0W3_eq (k1 k2 q s t : ℝ) (h1 : 0 < k1) (h2 : 0 < k2) (hq : 0 < q) (hmu : 0 < k1 ^ 2 - k2 ^ 2 + q ^ 2) (hy : q ≠ k2)
    (hs : s = Real.sqrt (q ^ 2 * (k1 ^ 2 - k2 ^ 2 + q ^ 2))) (ht : t = triLog (k1 * q) (q ^ 2 * (k1 ^ 2 - k2 ^ 2 + q ^ 2))) :
    -g2tColl0W3 (pw k1) (pw k2) (pw q) = 6209280 * k1 ^ 9 * k2 ^ 9 * q ^ 5 * ((-3 * q ^ 4 * (k1 * ((k2 - q) * (k2 + q)) ^ 2 / (7392 * k2 ^ 2 * q ^ 5))) * t) := by
  have hs0 : 0 < s := by rw [hs]; exact Real.sqrt_pos.mpr (by positivity)
  have hm : k1 ^ 2 - k2 ^ 2 + q ^ 2 ≠ 0 := hmu.ne'
  have d1 : k2 - q ≠ 0 := sub_ne_zero.mpr hy.symm
  have d2 : k2 + q ≠ 0 := by positivity
  have e : g2tColl0W3 (pw k1) (pw k2) (pw q) = 2520*k1 ^ 10*k2 ^ 7*(k2 - q)*(k2 - q)*q ^ 4*(k2 + q)*(k2 + q)*(s * t)/s := by
    simp only [g2tColl0W3, pw, pow_one, C01_power]
    rw [collLog k1 k2 q h1 h2 hq hmu hy, ← hs, ← ht]
  rw [e]
  field_simp
  ring

theorem g2tColl1W3_eq (k1 k2 q s t : ℝ) (h1 : 0 < k1) (h2 : 0 < k2) (hq : 0 < q) (hmu : 0 < k1 ^ 2 - k2 ^ 2 + q ^ 2) (hy : q ≠ k2)
    (hs : s = Real.sqrt (q ^ 2 * (k1 ^ 2 - k2 ^ 2 + q ^ 2))) (ht : t = triLog (k1 * q) (q ^ 2 * (k1 ^ 2 - k2 ^ 2 + q ^ 2))) :
    -g2tColl1W3 (pw k1) (pw k2) (pw q) = 6209280 * k1 ^ 9 * k2 ^ 9 * q ^ 5 * k2 ^ 2 * (((-5 * q ^ 2 * (k1 * ((k2 - q) * (k2 + q)) ^ 2 / (7392 * k2 ^ 2 * q ^ 5))) * t + (-3 * q ^ 4 * (k1 * ((k2 - q) * (k2 + q)) ^ 2 / (7392 * k2 ^ 2 * q ^ 5))) * collA ((k2 - q) * (k2 + q)) (k1 * q) (q ^ 2 * (k1 ^ 2 - k2 ^ 2 + q ^ 2)) q t)) := by
  have hs0 : 0 < s := by rw [hs]; exact Real.sqrt_pos.mpr (by positivity)
  have hm : k1 ^ 2 - k2 ^ 2 + q ^ 2 ≠ 0 := hmu.ne'
  have d1 : k2 - q ≠ 0 := sub_ne_zero.mpr hy.symm
  have d2 : k2 + q ≠ 0 := by positivity
  have e : g2tColl1W3 (pw k1) (pw k2) (pw q) = 420*k1 ^ 10*k2 ^ 9*(k2 - q)*(k2 - q)*q ^ 3*(k2 + q)*(k2 + q)*(12*k1*s + q*(10*k1 ^ 2 + 13*(-k2 ^ 2 + q ^ 2))*(s * t))/(q ^ 2 * (k1 ^ 2 - k2 ^ 2 + q ^ 2) * s) := by
    simp only [g2tColl1W3, pw, pow_one, C01_power]
    rw [rpow_three_half _ (by positivity), collLog k1 k2 q h1 h2 hq hmu hy, ← hs, ← ht]
  rw [e]
  unfold collA
  field_simp
  ring

theorem g2tColl2W3_eq (k1 k2 q s t : ℝ) (h1 : 0 < k1) (h2 : 0 < k2) (hq : 0 < q) (hmu : 0 < k1 ^ 2 - k2 ^ 2 + q ^ 2) (hy : q ≠ k2)
    (hs : s = Real.sqrt (q ^ 2 * (k1 ^ 2 - k2 ^ 2 + q ^ 2))) (ht : t = triLog (k1 * q) (q ^ 2 * (k1 ^ 2 - k2 ^ 2 + q ^ 2))) :
    g2tColl2W3 (pw k1) (pw k2) (pw q) = 6209280 * k1 ^ 9 * k2 ^ 9 * q ^ 5 * k2 ^ 4 * (((8 * (k1 * ((k2 - q) * (k2 + q)) ^ 2 / (7392 * k2 ^ 2 * q ^ 5))) * t + (-5 * q ^ 2 * (k1 * ((k2 - q) * (k2 + q)) ^ 2 / (7392 * k2 ^ 2 * q ^ 5))) * collA ((k2 - q) * (k2 + q)) (k1 * q) (q ^ 2 * (k1 ^ 2 - k2 ^ 2 + q ^ 2)) q t + (-3 * q ^ 4 * (k1 * ((k2 - q) * (k2 + q)) ^ 2 / (7392 * k2 ^ 2 * q ^ 5))) * collB ((k2 - q) * (k2 + q)) (k1 * q) (q ^ 2 * (k1 ^ 2 - k2 ^ 2 + q ^ 2)) q t)) := by
  have hs0 : 0 < s := by rw [hs]; exact Real.sqrt_pos.mpr (by positivity)
  have hm : k1 ^ 2 - k2 ^ 2 + q ^ 2 ≠ 0 := hmu.ne'
  have d1 : k2 - q ≠ 0 := sub_ne_zero.mpr hy.symm
  have d2 : k2 + q ≠ 0 := by positivity
  have e : g2tColl2W3 (pw k1) (pw k2) (pw q) = 105*k1 ^ 10*k2 ^ 11*((k2 - q) ^ 6)*q*((k2 + q) ^ 6)*s*((-4)*k1*s*(26*k1 ^ 2 + 35*(-k2 ^ 2 + q ^ 2)) + q*(64*k1 ^ 4 - 108*k1 ^ 2*(k2 ^ 2 - q ^ 2) + 35*(k2 ^ 2 - q ^ 2)*(k2 ^ 2 - q ^ 2))*(s * t))/((k1 ^ 2 - k2 ^ 2 + q ^ 2) ^ 3*((-(k2 ^ 2*q) + q ^ 3) ^ 4)) := by
    simp only [g2tColl2W3, pw, pow_one, C01_power]
    rw [collLog k1 k2 q h1 h2 hq hmu hy, ← hs, ← ht]
  have hss : s * s = q ^ 2 * (k1 ^ 2 - k2 ^ 2 + q ^ 2) := by rw [hs]; exact Real.mul_self_sqrt (by positivity)
  have e2 : 105*k1 ^ 10*k2 ^ 11*((k2 - q) ^ 6)*q*((k2 + q) ^ 6)*s*((-4)*k1*s*(26*k1 ^ 2 + 35*(-k2 ^ 2 + q ^ 2)) + q*(64*k1 ^ 4 - 108*k1 ^ 2*(k2 ^ 2 - q ^ 2) + 35*(k2 ^ 2 - q ^ 2)*(k2 ^ 2 - q ^ 2))*(s * t)) = 105*k1 ^ 10*k2 ^ 11*((k2 - q) ^ 6)*q*((k2 + q) ^ 6)*(q ^ 2 * (k1 ^ 2 - k2 ^ 2 + q ^ 2))*((-4)*k1*(26*k1 ^ 2 + 35*(-k2 ^ 2 + q ^ 2)) + q*(64*k1 ^ 4 - 108*k1 ^ 2*(k2 ^ 2 - q ^ 2) + 35*(k2 ^ 2 - q ^ 2)*(k2 ^ 2 - q ^ 2))*t) := by
    linear_combination (105*k1 ^ 10*k2 ^ 11*((k2 - q) ^ 6)*q*((k2 + q) ^ 6)*((-4)*k1*(26*k1 ^ 2 + 35*(-k2 ^ 2 + q ^ 2)) + q*(64*k1 ^ 4 - 108*k1 ^ 2*(k2 ^ 2 - q ^ 2) + 35*(k2 ^ 2 - q ^ 2)*(k2 ^ 2 - q ^ 2))*t)) * hss
  rw [e, e2, show -(k2 ^ 2*q) + q ^ 3 = -(q * ((k2 - q) * (k2 + q))) from by ring]
  unfold collA collB
  field_simp
  ring

theorem g2tColl0W2_eq (k1 k2 q s t : ℝ) (h1 : 0 < k1) (h2 : 0 < k2) (hq : 0 < q) (hmu : 0 < -k1 ^ 2 + k2 ^ 2 + q ^ 2) (hy : q ≠ k1)
    (hs : s = Real.sqrt (q ^ 2 * (-k1 ^ 2 + k2 ^ 2 + q ^ 2))) (ht : t = triLog (k2 * q) (q ^ 2 * (-k1 ^ 2 + k2 ^ 2 + q ^ 2))) :
    -g2tColl0W2 (pw k1) (pw k2) (pw q) = 6209280 * k1 ^ 9 * k2 ^ 9 * q ^ 5 * ((-3 * q ^ 4 * (k2 * ((k1 - q) * (k1 + q)) ^ 2 / (7392 * k1 ^ 2 * q ^ 5))) * t) := by
  have hs0 : 0 < s := by rw [hs]; exact Real.sqrt_pos.mpr (by positivity)
  have hm : -k1 ^ 2 + k2 ^ 2 + q ^ 2 ≠ 0 := hmu.ne'
  have d1 : k1 - q ≠ 0 := sub_ne_zero.mpr hy.symm
  have d2 : k1 + q ≠ 0 := by positivity
  have e : g2tColl0W2 (pw k1) (pw k2) (pw q) = 2520*k1 ^ 7*k2 ^ 10*(k1 - q)*(k1 - q)*q ^ 4*(k1 + q)*(k1 + q)*(s * t)/s := by
    simp only [g2tColl0W2, pw, pow_one, C01_power]
    rw [collLog' k1 k2 q h1 h2 hq hmu hy, ← hs, ← ht]
  rw [e]
  field_simp
  ring

theorem g2tColl1W2_eq (k1 k2 q s t : ℝ) (h1 : 0 < k1) (h2 : 0 < k2) (hq : 0 < q) (hmu : 0 < -k1 ^ 2 + k2 ^ 2 + q ^ 2) (hy : q ≠ k1)
    (hs : s = Real.sqrt (q ^ 2 * (-k1 ^ 2 + k2 ^ 2 + q ^ 2))) (ht : t = triLog (k2 * q) (q ^ 2 * (-k1 ^ 2 + k2 ^ 2 + q ^ 2))) :
    -g2tColl1W2 (pw k1) (pw k2) (pw q) = 6209280 * k1 ^ 9 * k2 ^ 9 * q ^ 5 * k2 ^ 2 * (((-5 * q ^ 2 * (k2 * ((k1 - q) * (k1 + q)) ^ 2 / (7392 * k1 ^ 2 * q ^ 5))) * t + (-3 * q ^ 4 * (k2 * ((k1 - q) * (k1 + q)) ^ 2 / (7392 * k1 ^ 2 * q ^ 5))) * collA ((k1 - q) * (k1 + q)) (k2 * q) (q ^ 2 * (-k1 ^ 2 + k2 ^ 2 + q ^ 2)) q t)) := by
  have hs0 : 0 < s := by rw [hs]; exact Real.sqrt_pos.mpr (by positivity)
  have hm : -k1 ^ 2 + k2 ^ 2 + q ^ 2 ≠ 0 := hmu.ne'
  have d1 : k1 - q ≠ 0 := sub_ne_zero.mpr hy.symm
  have d2 : k1 + q ≠ 0 := by positivity
  have e : g2tColl1W2 (pw k1) (pw k2) (pw q) = 420*k1 ^ 7*k2 ^ 12*(k1 - q)*(k1 - q)*q ^ 3*(k1 + q)*(k1 + q)*(12*k2*s + ((-13)*k1 ^ 2*q + 10*k2 ^ 2*q + 13*q ^ 3)*(s * t))/(q ^ 2 * (-k1 ^ 2 + k2 ^ 2 + q ^ 2) * s) := by
    simp only [g2tColl1W2, pw, pow_one, C01_power]
    rw [rpow_three_half _ (by positivity), collLog' k1 k2 q h1 h2 hq hmu hy, ← hs, ← ht]
  rw [e]
  unfold collA
  field_simp
  ring

theorem g2tColl2W2_eq (k1 k2 q s t : ℝ) (h1 : 0 < k1) (h2 : 0 < k2) (hq : 0 < q) (hmu : 0 < -k1 ^ 2 + k2 ^ 2 + q ^ 2) (hy : q ≠ k1)
    (hs : s = Real.sqrt (q ^ 2 * (-k1 ^ 2 + k2 ^ 2 + q ^ 2))) (ht : t = triLog (k2 * q) (q ^ 2 * (-k1 ^ 2 + k2 ^ 2 + q ^ 2))) :
    g2tColl2W2 (pw k1) (pw k2) (pw q) = 6209280 * k1 ^ 9 * k2 ^ 9 * q ^ 5 * k2 ^ 4 * (((8 * (k2 * ((k1 - q) * (k1 + q)) ^ 2 / (7392 * k1 ^ 2 * q ^ 5))) * t + (-5 * q ^ 2 * (k2 * ((k1 - q) * (k1 + q)) ^ 2 / (7392 * k1 ^ 2 * q ^ 5))) * collA ((k1 - q) * (k1 + q)) (k2 * q) (q ^ 2 * (-k1 ^ 2 + k2 ^ 2 + q ^ 2)) q t + (-3 * q ^ 4 * (k2 * ((k1 - q) * (k1 + q)) ^ 2 / (7392 * k1 ^ 2 * q ^ 5))) * collB ((k1 - q) * (k1 + q)) (k2 * q) (q ^ 2 * (-k1 ^ 2 + k2 ^ 2 + q ^ 2)) q t)) := by
  have hs0 : 0 < s := by rw [hs]; exact Real.sqrt_pos.mpr (by positivity)
  have hm : -k1 ^ 2 + k2 ^ 2 + q ^ 2 ≠ 0 := hmu.ne'
  have d1 : k1 - q ≠ 0 := sub_ne_zero.mpr hy.symm
  have d2 : k1 + q ≠ 0 := by positivity
  have e : g2tColl2W2 (pw k1) (pw k2) (pw q) = 105*k1 ^ 7*k2 ^ 14*((k1 - q) ^ 6)*q*((k1 + q) ^ 6)*s*((-4)*k2*s*((-35)*k1 ^ 2 + 26*k2 ^ 2 + 35*q ^ 2) + q*(35*k1 ^ 4 + 64*k2 ^ 4 + 108*k2 ^ 2*q ^ 2 + 35*q ^ 4 - 2*k1 ^ 2*(54*k2 ^ 2 + 35*q ^ 2))*(s * t))/((-k1 ^ 2 + k2 ^ 2 + q ^ 2) ^ 3*((-(k1 ^ 2*q) + q ^ 3) ^ 4)) := by
    simp only [g2tColl2W2, pw, pow_one, C01_power]
    rw [collLog' k1 k2 q h1 h2 hq hmu hy, ← hs, ← ht]
  have hss : s * s = q ^ 2 * (-k1 ^ 2 + k2 ^ 2 + q ^ 2) := by rw [hs]; exact Real.mul_self_sqrt (by positivity)
  have e2 : 105*k1 ^ 7*k2 ^ 14*((k1 - q) ^ 6)*q*((k1 + q) ^ 6)*s*((-4)*k2*s*((-35)*k1 ^ 2 + 26*k2 ^ 2 + 35*q ^ 2) + q*(35*k1 ^ 4 + 64*k2 ^ 4 + 108*k2 ^ 2*q ^ 2 + 35*q ^ 4 - 2*k1 ^ 2*(54*k2 ^ 2 + 35*q ^ 2))*(s * t)) = 105*k1 ^ 7*k2 ^ 14*((k1 - q) ^ 6)*q*((k1 + q) ^ 6)*(q ^ 2 * (-k1 ^ 2 + k2 ^ 2 + q ^ 2))*((-4)*k2*((-35)*k1 ^ 2 + 26*k2 ^ 2 + 35*q ^ 2) + q*(35*k1 ^ 4 + 64*k2 ^ 4 + 108*k2 ^ 2*q ^ 2 + 35*q ^ 4 - 2*k1 ^ 2*(54*k2 ^ 2 + 35*q ^ 2))*t) := by
    linear_combination (105*k1 ^ 7*k2 ^ 14*((k1 - q) ^ 6)*q*((k1 + q) ^ 6)*((-4)*k2*((-35)*k1 ^ 2 + 26*k2 ^ 2 + 35*q ^ 2) + q*(35*k1 ^ 4 + 64*k2 ^ 4 + 108*k2 ^ 2*q ^ 2 + 35*q ^ 4 - 2*k1 ^ 2*(54*k2 ^ 2 + 35*q ^ 2))*t)) * hss
  rw [e, e2, show -(k1 ^ 2*q) + q ^ 3 = -(q * ((k1 - q) * (k1 + q))) from by ring]
  unfold collA collB
  field_simp
  ring

/-- Part of the coefficient of `LFunc(k1,q)` beyond `kernel_gamma2t_coll`. -/
def g2tCollTA (k1 k2 k3 q : ℕ → ℝ) : ℝ :=
  ((-(329*k1 10)) + (11*k1 8)*q 2 + (1886*k1 6)*q 4 + (-(2434*k1 4))*q 6 + (811*k1 2)*q 8 + (55)*q 10)/(413952*k1 9*k2 2*q 5)

set_option maxHeartbeats 1000000 in
theorem g2tCollA_eq (k1 k2 k3 q : ℝ) (h1 : 0 < k1) (h2 : 0 < k2) (hq : 0 < q) :
    (-g2tColl0A (pw k1) (pw k2) (pw q) - (k3 / k2) ^ 2 * g2tColl1A (pw k1) (pw k2) (pw q) - (k3 / k2) ^ 4 * g2tColl2A (pw k1) (pw k2) (pw q)) / (6209280 * k1 ^ 9 * k2 ^ 9 * q ^ 5) =
    (g2tCL1 (pw k1) (pw k2) (pw k3) (pw q) - k3 ^ 6 * g2tCollTA (pw k1) (pw k2) (pw k3) (pw q)) * LFunc k1 q := by
  simp only [g2tColl0A, g2tColl1A, g2tColl2A, g2tCL1, g2tCollTA, LFunc, pw, pow_one, C01_power]
  generalize Real.log |(k1 + q) / (k1 - q)| = l
  field_simp
  ring

/-- Part of the coefficient of `LFunc(k2,q)` beyond `kernel_gamma2t_coll`. -/
def g2tCollTB (k1 k2 k3 q : ℕ → ℝ) : ℝ :=
  ((-(329*k2 10)) + (11*k2 8)*q 2 + (1886*k2 6)*q 4 + (-(2434*k2 4))*q 6 + (811*k2 2)*q 8 + (55)*q 10)/(413952*k1 2*k2 9*q 5)

set_option maxHeartbeats 1000000 in
theorem g2tCollB_eq (k1 k2 k3 q : ℝ) (h1 : 0 < k1) (h2 : 0 < k2) (hq : 0 < q) :
    (-g2tColl0B (pw k1) (pw k2) (pw q) - (k3 / k2) ^ 2 * g2tColl1B (pw k1) (pw k2) (pw q) - (k3 / k2) ^ 4 * g2tColl2B (pw k1) (pw k2) (pw q)) / (6209280 * k1 ^ 9 * k2 ^ 9 * q ^ 5) =
    (g2tCL2 (pw k1) (pw k2) (pw k3) (pw q) - k3 ^ 6 * g2tCollTB (pw k1) (pw k2) (pw k3) (pw q)) * LFunc k2 q := by
  simp only [g2tColl0B, g2tColl1B, g2tColl2B, g2tCL2, g2tCollTB, LFunc, pw, pow_one, C01_power]
  generalize Real.log |(k2 + q) / (k2 - q)| = l
  field_simp
  ring

/-- Rational part of the exact kernel beyond `kernel_gamma2t_coll`. -/
def g2tCollTP (k1 k2 k3 q : ℕ → ℝ) : ℝ :=
  ((280*k1 12*k2 6*k3 6 - 2520*k1 10*k2 8*k3 6 + 4480*k1 10*k2 6*k3 8 - 2520*k1 8*k2 10*k3 6 - 8960*k1 8*k2 8*k3 8 - 4200*k1 8*k2 6*k3 10
    + 280*k1 6*k2 12*k3 6 + 4480*k1 6*k2 10*k3 8 - 4200*k1 6*k2 8*k3 10 - 560*k1 6*k2 6*k3 12) + (745*k1 12*k2 6*k3 4 - 2225*k1 10*k2 8*k3 4
    - 12720*k1 10*k2 6*k3 6 - 2225*k1 8*k2 10*k3 4 + 32160*k1 8*k2 8*k3 6 + 10105*k1 8*k2 6*k3 8 + 745*k1 6*k2 12*k3 4 - 12720*k1 6*k2 10*k3
    6 + 10105*k1 6*k2 8*k3 8 - 370*k1 6*k2 6*k3 10)*q 2 + (-(296*k1 12*k2 6*k3 2) - 1096*k1 10*k2 8*k3 2 + 6984*k1 10*k2 6*k3 4 - 1096*k1
    8*k2 10*k3 2 - 7288*k1 8*k2 8*k3 4 - 7260*k1 8*k2 6*k3 6 - 296*k1 6*k2 12*k3 2 + 6984*k1 6*k2 10*k3 4 - 7260*k1 6*k2 8*k3 6 - 908*k1
    6*k2 6*k3 8)*q 4 + (183*k1 12*k2 6 - 3303*k1 10*k2 8 + 2756*k1 10*k2 6*k3 2 - 3303*k1 8*k2 10 + 144*k1 8*k2 8*k3 2 - 4301*k1 8*k2 6*k3 4
    + 183*k1 6*k2 12 + 2756*k1 6*k2 10*k3 2 - 4301*k1 6*k2 8*k3 4 - 30*k1 6*k2 6*k3 6)*q 6 + (13884*k1 10*k2 6 - 17016*k1 8*k2 8 - 15848*k1
    8*k2 6*k3 2 + 13884*k1 6*k2 10 - 15848*k1 6*k2 8*k3 2 - 3220*k1 6*k2 6*k3 4)*q 8 + (147093*k1 8*k2 6 + 147093*k1 6*k2 8 + 8736*k1 6*k2
    6*k3 2)*q 10 + (-(401712*k1 6*k2 6))*q 12 + (96870*k1 6*k2 4 + 96870*k1 4*k2 6)*q 14 + (-(37320*k1 6*k2 2) - 37320*k1 2*k2 6)*q 16 +
    (-(2475*k1 6) - 2475*k2 6)*q 18)/(4656960*k1 8*k2 8*q 14)

set_option maxHeartbeats 2000000 in
theorem g2tCollP_eq (k1 k2 k3 q : ℝ) (h1 : 0 < k1) (h2 : 0 < k2) (h3 : 0 < k3) (hq : 0 < q) (n1 : q ≠ k1) (n2 : q ≠ k2) :
    (g2tColl0P (pw k1) (pw k2) (pw q) + (k3 / k2) ^ 2 * g2tColl1P (pw k1) (pw k2) (pw q) + (k3 / k2) ^ 4 * g2tColl2P (pw k1) (pw k2) (pw q)) /
      (6209280 * k1 ^ 9 * k2 ^ 9 * q ^ 5) =
    g2tC0 (pw k1) (pw k2) (pw k3) (pw q) + g2tCL3 (pw k1) (pw k2) (pw k3) (pw q) * (4 * artSum 5 (k3 / q)) +
      g2tCW1 (pw k1) (pw k2) (pw k3) (pw q) * (4 * (k3 * q) / ((k1 ^ 2 - q ^ 2) * (k2 ^ 2 - q ^ 2))) - k3 ^ 6 * g2tCollTP (pw k1) (pw k2) (pw k3) (pw q) := by
  have d1 : k1 ^ 2 - q ^ 2 ≠ 0 := by
    rw [show k1 ^ 2 - q ^ 2 = (k1 - q) * (k1 + q) from by ring]; exact mul_ne_zero (sub_ne_zero.mpr n1.symm) (by positivity)
  have d2 : k2 ^ 2 - q ^ 2 ≠ 0 := by
    rw [show k2 ^ 2 - q ^ 2 = (k2 - q) * (k2 + q) from by ring]; exact mul_ne_zero (sub_ne_zero.mpr n2.symm) (by positivity)
  have e1 : g2tCW1 (pw k1) (pw k2) (pw k3) (pw q) * (4 * (k3 * q) / ((k1 ^ 2 - q ^ 2) * (k2 ^ 2 - q ^ 2))) =
      (12 / 1078) * k3 ^ 4 * (k1 ^ 2 - q ^ 2) * (k2 ^ 2 - q ^ 2) / (k1 ^ 2 * k2 ^ 2 * q ^ 4) := by
    simp only [g2tCW1, pw, pow_one]
    field_simp
    ring
  rw [e1]
  simp only [artSum, Finset.sum_range_succ, Finset.sum_range_zero]
  push_cast
  simp only [g2tColl0P, g2tColl1P, g2tColl2P, g2tC0, g2tCL3, g2tCollTP, pw, pow_one, C01_power]
  field_simp
  ring

theorem g2tCW2_coll (k1 k2 k3 q : ℝ) (h1 : 0 < k1) (h2 : 0 < k2) (hq : 0 < q) :
    g2tCW2 (pw k1) (pw k2) (pw k3) (pw q) = k2 * ((k1 - q) * (k1 + q)) ^ 2 / (7392 * k1 ^ 2 * q ^ 5) * (8 * k3 ^ 4 + -5 * q ^ 2 * k3 ^ 2 + -3 * q ^ 4) := by
  simp only [g2tCW2, pw, pow_one]
  field_simp
  ring

theorem g2tCW3_coll (k1 k2 k3 q : ℝ) (h1 : 0 < k1) (h2 : 0 < k2) (hq : 0 < q) :
    g2tCW3 (pw k1) (pw k2) (pw k3) (pw q) = k1 * ((k2 - q) * (k2 + q)) ^ 2 / (7392 * k2 ^ 2 * q ^ 5) * (8 * k3 ^ 4 + -5 * q ^ 2 * k3 ^ 2 + -3 * q ^ 4) := by
  simp only [g2tCW3, pw, pow_one]
  field_simp
  ring

/-- What the expanded exact kernel has beyond `kernel_gamma2t_coll`, without the factor `k3^6`. -/
def g2tCollT (k1 k2 k3 q : ℝ) : ℝ :=
  g2tCollTP (pw k1) (pw k2) (pw k3) (pw q) + g2tCollTA (pw k1) (pw k2) (pw k3) (pw q) * LFunc k1 q + g2tCollTB (pw k1) (pw k2) (pw k3) (pw q) * LFunc k2 q +
    k2 * ((k1 - q) * (k1 + q)) ^ 2 / (7392 * k1 ^ 2 * q ^ 5) * (
      8 * collA ((k1 - q) * (k1 + q)) (k2 * q) (q ^ 2 * (-k1 ^ 2 + k2 ^ 2 + q ^ 2)) q (triLog (k2 * q) (q ^ 2 * (-k1 ^ 2 + k2 ^ 2 + q ^ 2))) +
      (-5 * q ^ 2 + 8 * k3 ^ 2) * collB ((k1 - q) * (k1 + q)) (k2 * q) (q ^ 2 * (-k1 ^ 2 + k2 ^ 2 + q ^ 2)) q (triLog (k2 * q) (q ^ 2 * (-k1 ^ 2 + k2 ^ 2 + q ^ 2)))) +
    k1 * ((k2 - q) * (k2 + q)) ^ 2 / (7392 * k2 ^ 2 * q ^ 5) * (
      8 * collA ((k2 - q) * (k2 + q)) (k1 * q) (q ^ 2 * (k1 ^ 2 - k2 ^ 2 + q ^ 2)) q (triLog (k1 * q) (q ^ 2 * (k1 ^ 2 - k2 ^ 2 + q ^ 2))) +
      (-5 * q ^ 2 + 8 * k3 ^ 2) * collB ((k2 - q) * (k2 + q)) (k1 * q) (q ^ 2 * (k1 ^ 2 - k2 ^ 2 + q ^ 2)) q (triLog (k1 * q) (q ^ 2 * (k1 ^ 2 - k2 ^ 2 + q ^ 2))))

set_option maxHeartbeats 1000000 in
theorem g2t_coll_identity (k1 k2 k3 q : ℝ) (h1 : 0 < k1) (h2 : 0 < k2) (h3 : 0 < k3) (hq : 0 < q) (n1 : q ≠ k1) (n2 : q ≠ k2)
    (m2 : 0 < -k1 ^ 2 + k2 ^ 2 + q ^ 2) (m3 : 0 < k1 ^ 2 - k2 ^ 2 + q ^ 2) :
    π * (g2tC0 (pw k1) (pw k2) (pw k3) (pw q) + g2tCL1 (pw k1) (pw k2) (pw k3) (pw q) * LFunc k1 q + g2tCL2 (pw k1) (pw k2) (pw k3) (pw q) * LFunc k2 q + g2tCL3 (pw k1) (pw k2) (pw k3) (pw q) * (4 * artSum 5 (k3 / q)) +
      g2tCW1 (pw k1) (pw k2) (pw k3) (pw q) * (4 * (k3 * q) / ((k1 ^ 2 - q ^ 2) * (k2 ^ 2 - q ^ 2))) +
      g2tCW2 (pw k1) (pw k2) (pw k3) (pw q) * collW ((k1 - q) * (k1 + q)) (k2 * q) (q ^ 2 * (-k1 ^ 2 + k2 ^ 2 + q ^ 2)) q k3 +
      g2tCW3 (pw k1) (pw k2) (pw k3) (pw q) * collW ((k2 - q) * (k2 + q)) (k1 * q) (q ^ 2 * (k1 ^ 2 - k2 ^ 2 + q ^ 2)) q k3) - g2tColl k1 k2 k3 q =
    π * (k3 ^ 6 * g2tCollT k1 k2 k3 q) := by
  have a0 := g2tCollA_eq k1 k2 k3 q h1 h2 hq
  have b0 := g2tCollB_eq k1 k2 k3 q h1 h2 hq
  have p0 := g2tCollP_eq k1 k2 k3 q h1 h2 h3 hq n1 n2
  have w20 := g2tColl0W2_eq k1 k2 q _ _ h1 h2 hq m2 n1 rfl rfl
  have w21 := g2tColl1W2_eq k1 k2 q _ _ h1 h2 hq m2 n1 rfl rfl
  have w22 := g2tColl2W2_eq k1 k2 q _ _ h1 h2 hq m2 n1 rfl rfl
  have w30 := g2tColl0W3_eq k1 k2 q _ _ h1 h2 hq m3 n2 rfl rfl
  have w31 := g2tColl1W3_eq k1 k2 q _ _ h1 h2 hq m3 n2 rfl rfl
  have w32 := g2tColl2W3_eq k1 k2 q _ _ h1 h2 hq m3 n2 rfl rfl
  rw [g2tCW2_coll k1 k2 k3 q h1 h2 hq, g2tCW3_coll k1 k2 k3 q h1 h2 hq]
  rw [g2tColl, g2tColl0_split, g2tColl1_split, g2tColl2_split, g2tCollT]
  unfold collW
  have v20 := congrArg (fun z => z / (6209280 * k1 ^ 9 * k2 ^ 9 * q ^ 5)) w20
  have f20 (z : ℝ) : (6209280 * k1 ^ 9 * k2 ^ 9 * q ^ 5 * z) / (6209280 * k1 ^ 9 * k2 ^ 9 * q ^ 5) = z := by
    field_simp
  simp only [f20] at v20
  have v21 := congrArg (fun z => (k3 / k2) ^ 2 * z / (6209280 * k1 ^ 9 * k2 ^ 9 * q ^ 5)) w21
  have f21 (z : ℝ) : (k3 / k2) ^ 2 * (6209280 * k1 ^ 9 * k2 ^ 9 * q ^ 5 * k2 ^ 2 * z) / (6209280 * k1 ^ 9 * k2 ^ 9 * q ^ 5) = k3 ^ 2 * z := by
    field_simp
  simp only [f21] at v21
  have v22 := congrArg (fun z => (k3 / k2) ^ 4 * z / (6209280 * k1 ^ 9 * k2 ^ 9 * q ^ 5)) w22
  have f22 (z : ℝ) : (k3 / k2) ^ 4 * (6209280 * k1 ^ 9 * k2 ^ 9 * q ^ 5 * k2 ^ 4 * z) / (6209280 * k1 ^ 9 * k2 ^ 9 * q ^ 5) = k3 ^ 4 * z := by
    field_simp
  simp only [f22] at v22
  have v30 := congrArg (fun z => z / (6209280 * k1 ^ 9 * k2 ^ 9 * q ^ 5)) w30
  have f30 (z : ℝ) : (6209280 * k1 ^ 9 * k2 ^ 9 * q ^ 5 * z) / (6209280 * k1 ^ 9 * k2 ^ 9 * q ^ 5) = z := by
    field_simp
  simp only [f30] at v30
  have v31 := congrArg (fun z => (k3 / k2) ^ 2 * z / (6209280 * k1 ^ 9 * k2 ^ 9 * q ^ 5)) w31
  have f31 (z : ℝ) : (k3 / k2) ^ 2 * (6209280 * k1 ^ 9 * k2 ^ 9 * q ^ 5 * k2 ^ 2 * z) / (6209280 * k1 ^ 9 * k2 ^ 9 * q ^ 5) = k3 ^ 2 * z := by
    field_simp
  simp only [f31] at v31
  have v32 := congrArg (fun z => (k3 / k2) ^ 4 * z / (6209280 * k1 ^ 9 * k2 ^ 9 * q ^ 5)) w32
  have f32 (z : ℝ) : (k3 / k2) ^ 4 * (6209280 * k1 ^ 9 * k2 ^ 9 * q ^ 5 * k2 ^ 4 * z) / (6209280 * k1 ^ 9 * k2 ^ 9 * q ^ 5) = k3 ^ 4 * z := by
    field_simp
  simp only [f32] at v32
  simp only [show ∀ x n, pw x n = x ^ n from fun _ _ => rfl, show (6.20928e6 : ℝ) = 6209280 from by norm_num]
  linear_combination (-π) * (a0 + b0 + p0 + v20 + v21 + v22 + v30 + v31 + v32)

/-- `g2tCL3` times `k3^5`. -/
def g2tCL3N (k1 k2 k3 q : ℕ → ℝ) : ℝ :=
  ((8*k1 6*k3 8 - 72*k1 4*k2 2*k3 8 + 128*k1 4*k3 10 - 72*k1 2*k2 4*k3 8 - 256*k1 2*k2 2*k3 10 - 120*k1 2*k3 12 + 8*k2 6*k3 8 + 128*k2
    4*k3 10 - 120*k2 2*k3 12 - 16*k3 14) + (11*k1 6*k3 6 + 29*k1 4*k2 2*k3 6 - 528*k1 4*k3 8 + 29*k1 2*k2 4*k3 6 + 1248*k1 2*k2 2*k3 8 +
    443*k1 2*k3 10 + 11*k2 6*k3 6 - 528*k2 4*k3 8 + 443*k2 2*k3 10 + 10*k3 12)*q 2 + (-(37*k1 6*k3 4) + 61*k1 4*k2 2*k3 4 + 648*k1 4*k3 6 +
    61*k1 2*k2 4*k3 4 - 1352*k1 2*k2 2*k3 6 - 561*k1 2*k3 8 - 37*k2 6*k3 4 + 648*k2 4*k3 6 - 561*k2 2*k3 8 - 10*k3 10)*q 4 + (9*k1 6*k3 2 -
    9*k1 4*k2 2*k3 2 - 188*k1 4*k3 4 - 9*k1 2*k2 4*k3 2 + 264*k1 2*k2 2*k3 4 + 161*k1 2*k3 6 + 9*k2 6*k3 2 - 188*k2 4*k3 4 + 161*k2 2*k3 6 +
    42*k3 8)*q 6 + (9*k1 6 - 9*k1 4*k2 2 - 96*k1 4*k3 2 - 9*k1 2*k2 4 + 168*k1 2*k2 2*k3 2 + 101*k1 2*k3 4 + 9*k2 6 - 96*k2 4*k3 2 + 101*k2
    2*k3 4 - 14*k3 6)*q 8 + (36*k1 4 - 72*k1 2*k2 2 - 24*k1 2*k3 2 + 36*k2 4 - 24*k2 2*k3 2 - 12*k3 4)*q 10)/(59136*k1 2*k2 2*q 5)

theorem g2tCL3N_eq (k1 k2 k3 q : ℝ) (h1 : 0 < k1) (h2 : 0 < k2) (h3 : 0 < k3) (hq : 0 < q) :
    g2tCL3 (pw k1) (pw k2) (pw k3) (pw q) * k3 ^ 11 = g2tCL3N (pw k1) (pw k2) (pw k3) (pw q) * k3 ^ 6 := by
  simp only [g2tCL3, g2tCL3N, pw, pow_one]
  field_simp

/-- `g2tCW1` divided by `k3^3`. -/
def g2tCW1N (k1 k2 q : ℝ) : ℝ := 3 * ((k1 ^ 2 - q ^ 2) * (k2 ^ 2 - q ^ 2)) ^ 2 / (1078 * k1 ^ 2 * k2 ^ 2 * q ^ 5)

theorem g2tCW1N_eq (k1 k2 k3 q : ℝ) (h1 : 0 < k1) (h2 : 0 < k2) (hq : 0 < q) :
    g2tCW1 (pw k1) (pw k2) (pw k3) (pw q) * k3 ^ 3 = g2tCW1N k1 k2 q * k3 ^ 6 := by
  simp only [g2tCW1, g2tCW1N, pw, pow_one]
  field_simp
  ring

set_option maxHeartbeats 1000000 in
theorem g2tCL3N_cont (a q : ℝ) (ha : 0 < a) (hq : 0 < q) :
    ContinuousAt (fun p : ℝ × ℝ × ℝ => g2tCL3N (pw p.1) (pw p.2.1) (pw p.2.2) (pw q)) (a, a, 0) := by
  simp only [g2tCL3N, pw]
  exact ContinuousAt.div (by fun_prop) (by fun_prop) (by simp only []; positivity)

set_option maxHeartbeats 1000000 in
theorem g2tCollTP_cont (a q : ℝ) (ha : 0 < a) (hq : 0 < q) :
    ContinuousAt (fun p : ℝ × ℝ × ℝ => g2tCollTP (pw p.1) (pw p.2.1) (pw p.2.2) (pw q)) (a, a, 0) := by
  simp only [g2tCollTP, pw]
  exact ContinuousAt.div (by fun_prop) (by fun_prop) (by simp only []; positivity)

set_option maxHeartbeats 1000000 in
theorem g2tCollTA_cont (a q : ℝ) (ha : 0 < a) (hq : 0 < q) :
    ContinuousAt (fun p : ℝ × ℝ × ℝ => g2tCollTA (pw p.1) (pw p.2.1) (pw p.2.2) (pw q)) (a, a, 0) := by
  simp only [g2tCollTA, pw]
  exact ContinuousAt.div (by fun_prop) (by fun_prop) (by simp only []; positivity)

set_option maxHeartbeats 1000000 in
theorem g2tCollTB_cont (a q : ℝ) (ha : 0 < a) (hq : 0 < q) :
    ContinuousAt (fun p : ℝ × ℝ × ℝ => g2tCollTB (pw p.1) (pw p.2.1) (pw p.2.2) (pw q)) (a, a, 0) := by
  simp only [g2tCollTB, pw]
  exact ContinuousAt.div (by fun_prop) (by fun_prop) (by simp only []; positivity)

set_option maxHeartbeats 1000000 in
theorem g2tCW2_cont (a q : ℝ) (ha : 0 < a) (hq : 0 < q) :
    ContinuousAt (fun p : ℝ × ℝ × ℝ => g2tCW2 (pw p.1) (pw p.2.1) (pw p.2.2) (pw q)) (a, a, 0) := by
  simp only [g2tCW2, pw]
  exact ContinuousAt.div (by fun_prop) (by fun_prop) (by simp only []; positivity)

set_option maxHeartbeats 1000000 in
theorem g2tCW3_cont (a q : ℝ) (ha : 0 < a) (hq : 0 < q) :
    ContinuousAt (fun p : ℝ × ℝ × ℝ => g2tCW3 (pw p.1) (pw p.2.1) (pw p.2.2) (pw q)) (a, a, 0) := by
  simp only [g2tCW3, pw]
  exact ContinuousAt.div (by fun_prop) (by fun_prop) (by simp only []; positivity)

theorem g2tCollT_cont (a q : ℝ) (ha : 0 < a) (hq : 0 < q) (n : q ≠ a) :
    ContinuousAt (fun p : ℝ × ℝ × ℝ => g2tCollT p.1 p.2.1 p.2.2 q) (a, a, 0) := by
  have c1 : ContinuousAt (fun p : ℝ × ℝ × ℝ => p.1) (a, a, 0) := by fun_prop
  have c2 : ContinuousAt (fun p : ℝ × ℝ × ℝ => p.2.1) (a, a, 0) := by fun_prop
  have c3 : ContinuousAt (fun p : ℝ × ℝ × ℝ => p.2.2) (a, a, 0) := by fun_prop
  obtain ⟨a2, b2⟩ := coll_cont a q (fun p => p.2.1) (fun p => p.1) ha hq n c2 c1 rfl rfl
    (fun p => q ^ 2 * (-p.1 ^ 2 + p.2.1 ^ 2 + q ^ 2)) (fun p => by ring)
  obtain ⟨a3, b3⟩ := coll_cont a q (fun p => p.1) (fun p => p.2.1) ha hq n c1 c2 rfl rfl
    (fun p => q ^ 2 * (p.1 ^ 2 - p.2.1 ^ 2 + q ^ 2)) (fun p => rfl)
  have l1 := cont_LFunc q _ _ c1 ha hq n
  have l2 := cont_LFunc q _ _ c2 ha hq n
  have w2 : ContinuousAt (fun p : ℝ × ℝ × ℝ => p.2.1 * ((p.1 - q) * (p.1 + q)) ^ 2 / (7392 * p.1 ^ 2 * q ^ 5)) (a, a, 0) :=
    ContinuousAt.div (by fun_prop) (by fun_prop) (by simp only []; positivity)
  have w3 : ContinuousAt (fun p : ℝ × ℝ × ℝ => p.1 * ((p.2.1 - q) * (p.2.1 + q)) ^ 2 / (7392 * p.2.1 ^ 2 * q ^ 5)) (a, a, 0) :=
    ContinuousAt.div (by fun_prop) (by fun_prop) (by simp only []; positivity)
  have e : ContinuousAt (fun p : ℝ × ℝ × ℝ => (-5 * q ^ 2 + 8 * p.2.2 ^ 2 : ℝ)) (a, a, 0) := by fun_prop
  unfold g2tCollT
  exact ((((g2tCollTP_cont a q ha hq).add ((g2tCollTA_cont a q ha hq).mul l1)).add ((g2tCollTB_cont a q ha hq).mul l2)).add
    (w2.mul ((a2.const_mul 8).add (e.mul b2)))).add (w3.mul ((a3.const_mul 8).add (e.mul b3)))

/-- **As one side goes to zero**, the exact kernel differs from the one used by the code at order `k3^6`. -/
theorem g2t_coll (a q : ℝ) (ha : 0 < a) (hq : 0 < q) (n : q ≠ a) :
    (fun p : ℝ × ℝ × ℝ => g2tExact p.1 p.2.1 p.2.2 q - g2tColl p.1 p.2.1 p.2.2 q) =O[collF a] fun p => p.2.2 ^ 6 := by
  have c1 : ContinuousAt (fun p : ℝ × ℝ × ℝ => p.1) (a, a, 0) := by fun_prop
  have c2 : ContinuousAt (fun p : ℝ × ℝ × ℝ => p.2.1) (a, a, 0) := by fun_prop
  have c3 : ContinuousAt (fun p : ℝ × ℝ × ℝ => p.2.2) (a, a, 0) := by fun_prop
  have r0 := coll_L3 a q hq
  have r1 := coll_W1 a q ha hq n
  have r2 := coll_W a q (fun p => p.2.1) (fun p => p.1) ha hq n c2 c1 rfl rfl
    (fun p => q ^ 2 * (-p.1 ^ 2 + p.2.1 ^ 2 + q ^ 2)) (fun p => by ring)
  have r3 := coll_W a q (fun p => p.1) (fun p => p.2.1) ha hq n c1 c2 rfl rfl
    (fun p => q ^ 2 * (p.1 ^ 2 - p.2.1 ^ 2 + q ^ 2)) (fun p => rfl)
  have cw1 : ContinuousAt (fun p : ℝ × ℝ × ℝ => g2tCW1N p.1 p.2.1 q) (a, a, 0) := by
    unfold g2tCW1N
    exact ContinuousAt.div (by fun_prop) (by fun_prop) (by simp only []; positivity)
  have k6 := isBigO_refl (fun p : ℝ × ℝ × ℝ => p.2.2 ^ 6) (collF a)
  have s0 := (collF_one (g2tCL3N_cont a q ha hq)).mul k6
  have s1 := (collF_one cw1).mul k6
  have s2 := (collF_one (g2tCW2_cont a q ha hq)).mul r2
  have s3 := (collF_one (g2tCW3_cont a q ha hq)).mul r3
  have s4 := (collF_one (g2tCollT_cont a q ha hq n)).mul k6
  simp only [one_mul] at s0 s1 s2 s3 s4
  have t0 : (fun p : ℝ × ℝ × ℝ => g2tCL3 (pw p.1) (pw p.2.1) (pw p.2.2) (pw q) * (LFunc p.2.2 q - 4 * artSum 5 (p.2.2 / q))) =O[collF a] fun p => p.2.2 ^ 6 := by
    refine ((isBigO_refl _ _).mul r0).trans (s0.congr' ?_ EventuallyEq.rfl)
    filter_upwards [collF_tri a] with p ht
    exact (g2tCL3N_eq _ _ _ _ ht.pos1 ht.pos2 ht.pos3 hq).symm
  have t1 : (fun p : ℝ × ℝ × ℝ => g2tCW1 (pw p.1) (pw p.2.1) (pw p.2.2) (pw q) * (triLog (p.2.2 * q) (triM p.1 p.2.1 p.2.2 q) -
      4 * (p.2.2 * q) / ((p.1 ^ 2 - q ^ 2) * (p.2.1 ^ 2 - q ^ 2)))) =O[collF a] fun p => p.2.2 ^ 6 := by
    refine ((isBigO_refl _ _).mul r1).trans (s1.congr' ?_ EventuallyEq.rfl)
    filter_upwards [collF_tri a] with p ht
    exact (g2tCW1N_eq _ _ _ _ ht.pos1 ht.pos2 hq).symm
  refine (((((t0.add t1).add s2).add s3).add s4).const_mul_left π).congr' ?_ EventuallyEq.rfl
  have e1 : ∀ᶠ p in collF a, p.1 ≠ q := collF_ev (c1.eventually_ne n.symm)
  have e2 : ∀ᶠ p in collF a, p.2.1 ≠ q := collF_ev (c2.eventually_ne n.symm)
  have e3 : ∀ᶠ p in collF a, p.2.2 ≠ q := collF_ev (c3.eventually_ne hq.ne)
  have m2 : ∀ᶠ p in collF a, 0 < -p.1 ^ 2 + p.2.1 ^ 2 + q ^ 2 :=
    collF_ev ((show ContinuousAt (fun p : ℝ × ℝ × ℝ => -p.1 ^ 2 + p.2.1 ^ 2 + q ^ 2) (a, a, 0) by fun_prop).eventually
      (lt_mem_nhds (show 0 < -a ^ 2 + a ^ 2 + q ^ 2 by rw [neg_add_cancel, zero_add]; positivity)))
  have m3 : ∀ᶠ p in collF a, 0 < p.1 ^ 2 - p.2.1 ^ 2 + q ^ 2 :=
    collF_ev ((show ContinuousAt (fun p : ℝ × ℝ × ℝ => p.1 ^ 2 - p.2.1 ^ 2 + q ^ 2) (a, a, 0) by fun_prop).eventually
      (lt_mem_nhds (show 0 < a ^ 2 - a ^ 2 + q ^ 2 by rw [sub_self, zero_add]; positivity)))
  filter_upwards [collF_tri a, e1, e2, e3, m2, m3] with p ht n1 n2 n3 hm2 hm3
  have hI := g2t_coll_identity p.1 p.2.1 p.2.2 q ht.pos1 ht.pos2 ht.pos3 hq n1.symm n2.symm hm2 hm3
  rw [g2tExact_form p.1 p.2.1 p.2.2 q ht hq n1.symm n2.symm n3.symm]
  linear_combination -hI

end

end Verif
