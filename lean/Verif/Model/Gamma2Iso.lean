import Verif.Model.Gamma2d
import Verif.Model.Gamma2t

/-!
# `kernel_gamma2d_iso` and `kernel_gamma2t_iso`

Transcribed by `tools/gamma2.py iso`.  These kernels are never called; they are meant for nearly isosceles triangles.
-/

namespace Verif

noncomputable section

open Real

/-- The expression of `kernel_gamma2d_iso` (`src/gamma2d_1loop.c:139-205`). -/
def g2dIsoE (k1 eps k3 q : ℕ → ℝ) : ℝ :=
  π*((-60)*eps 1*(k1 1 - q 1)*q 1*(k1 1 + q 1)*(165*k3 6*q 6 + k1 10*((-696)*k3 2 + 504*q 2) - k1 8*(991*k3 4 + 868*k3 2*q 2) + k1 6*((-151)*k3 6 -
    570*k3 4*q 2 + 2396*k3 2*q 4) + k1 4*((-269)*k3 6*q 2 + 1485*k3 4*q 4 - 1224*k3 2*q 6) + 3*k1 2*(85*k3 6*q 4 - 12*k3 4*q 6))/k1 10 + 8*q
    1*(420*eps 1*(k1 2 - q 2)*(k1 2 - q 2)*(2*k3 4 + 7*k3 2*q 2 - 9*q 4)/(k1 2*k3 2 - k3 2*q 2 + q 4) + 2160*eps 1*k3 4*(power (-k1 2 + q 2) 3)/(k1
    2*(k1 4 - 2*k1 2*q 2 + k3 2*q 2 + q 4)) + ((-420)*eps 1*k1 12*k3 2*(k1 2 - q 2)*(2*k3 4 + 7*k3 2*q 2 - 9*q 4) + (k1 2*k3 2 - k3 2*q 2 + q
    4)*(2475*(-1 + 5*eps 1)*k3 8*q 8 + 360*(1 + eps 1)*k1 12*k3 2*(29*k3 2 - 21*q 2) - 60*(-1 + 4*eps 1)*k1 2*k3 6*q 6*(5*k3 2 + 9*q 2) - 45*(-1 +
    3*eps 1)*k1 4*k3 4*q 4*(202*k3 4 - 515*k3 2*q 2 + 408*q 4) + 15*k1 10*(847*k3 6 - 348*k3 4*q 2 + 644*k3 2*q 4 + 252*q 6) - (-1 + 2*eps 1)*k1
    6*k3 2*(210*k3 8 - 34455*k3 6*q 2 + 43691*k3 4*q 4 - 68325*k3 2*q 6 + 1890*q 8) - (-1 + eps 1)*k1 8*(5415*k3 8 - 120370*k3 6*q 2 + 143794*k3 4*q
    4 - 47775*k3 2*q 6 + 7560*q 8)))/(k1 10*k3 2*(k1 2*k3 2 - k3 2*q 2 + q 4))) + 15*(165*(2 - 11*eps 1)*k3 6*q 10 - 24*(2 + 3*eps 1)*k1 14*(29*k3 2
    - 21*q 2) + 3*(-2 + 9*eps 1)*k1 2*k3 4*q 8*(25*k3 2 + 12*q 2) - (-2 + 3*eps 1)*k1 8*k3 2*q 2*(33*k3 4 + 1634*k3 2*q 2 - 6884*q 4) - (2 + eps
    1)*k1 12*(991*k3 4 - 524*k3 2*q 2 + 1008*q 4) + (-2 + 7*eps 1)*k1 4*k3 2*q 6*(614*k3 4 - 1557*k3 2*q 2 + 1224*q 4) - 2*(-2 + 5*eps 1)*k1 6*k3
    2*q 4*(321*k3 4 - 1788*k3 2*q 2 + 2422*q 4) + (-2 + eps 1)*k1 10*(151*k3 6 - 1412*k3 4*q 2 - 3436*k3 2*q 4 - 504*q 6))*2*(Real.log (abs ((k1 1 +
    q 1)/(k1 1 - q 1))))/k1 11 - 210*(2*k3 4 + 7*k3 2*q 2 - 9*q 4)*(8*(1 + eps 1)*k1 6*k3 2 - 4*k1 4*(3*k3 2*q 2 + q 4) - (-1 + eps 1)*k1 2*(15*k3 6
    - 46*k3 4*q 2 + 47*k3 2*q 4 - 8*q 6) - (-1 + 2*eps 1)*k3 2*(k3 6 + k3 2*q 4 - 2*q 6))*2*(Real.log (abs ((k3 1 + q 1)/(k3 1 - q 1))))/(k1 4*k3 3)
    + 840*(-k1 1 + q 1)*(k1 1 + q 1)*((-2)*k3 4 - 7*k3 2*q 2 + 9*q 4)*(2*(1 + eps 1)*k1 4*k3 2 + (-2 + eps 1)*q 4*(-k3 2 + q 2) + k1 2*q 2*(-((4 +
    eps 1)*k3 2) + (2 + 3*eps 1)*q 2))*(Real.log ((-(k3 2*q 2) + q 4 + k1 2*(k3 2 + q 2) + 2*k1 1*q 1*(Real.sqrt (k1 2*k3 2 - k3 2*q 2 + q
    4)))/(-(k3 2*q 2) + q 4 + k1 2*(k3 2 + q 2) - 2*k1 1*q 1*(Real.sqrt (k1 2*k3 2 - k3 2*q 2 + q 4)))))/(k1 1*((k1 2*k3 2 - k3 2*q 2 + q
    4)^(1.5:ℝ))) + 4320*k3 3*(power (k1 2 - q 2) 3)*((1 + eps 1)*k1 6 - 3*k1 4*q 2 + (-1 + 2*eps 1)*q 4*(k3 2 + q 2) + k1 2*q 2*((1 + 2*eps 1)*k3 2
    - 3*(-1 + eps 1)*q 2))*(Real.log (-((4*k3 2*q 2 + 2*(k1 2 - q 2)*(k1 2 - q 2) + 4*k3 1*q 1*(Real.sqrt (k1 4 + ((-2)*k1 2 + k3 2)*q 2 + q
    4)))/((-4)*k3 2*q 2 - 2*(k1 2 - q 2)*(k1 2 - q 2) + 4*k3 1*q 1*(Real.sqrt (k1 4 + ((-2)*k1 2 + k3 2)*q 2 + q 4))))))/(k1 4*((k1 4 - 2*k1 2*q 2 +
    k3 2*q 2 + q 4)^(1.5:ℝ))))/(6.20928e6*q 5)

/-- `kernel_gamma2d_iso` (`src/gamma2d_1loop.c:134-206`). -/
def g2dIso (k1 k2 k3 q : ℝ) : ℝ := g2dIsoE (pw k1) (pw (k2/k1 - 1)) (pw k3) (pw q)

/-- The expression of `kernel_gamma2t_iso` (`src/gamma2t_1loop.c:124-188`). -/
def g2tIsoE (k1 eps k3 q : ℕ → ℝ) : ℝ :=
  π*((-60)*eps 1*(k1 1 - q 1)*q 1*(k1 1 + q 1)*(55*k3 6*q 6 - 56*k1 10*(k3 2 - 3*q 2) - 5*k1 8*(377*k3 4 - 36*k3 2*q 2) + k1 6*((-329)*k3 6 +
    3066*k3 4*q 2 + 564*k3 2*q 4) - k1 4*(647*k3 6*q 2 + 1617*k3 4*q 4 + 408*k3 2*q 6) + 3*k1 2*(307*k3 6*q 4 - 4*k3 4*q 6))/k1 10 + 8*q 1*(8640*eps
    1*k3 4*(power (-k1 2 + q 2) 3)/(k1 2*(k1 4 - 2*k1 2*q 2 + k3 2*q 2 + q 4)) - 420*eps 1*(k1 2 - q 2)*(k1 2 - q 2)*((-8)*k3 4 + 5*k3 2*q 2 + 3*q
    4)/(k1 2*k3 2 - k3 2*q 2 + q 4) + ((-420)*eps 1*k1 12*k3 2*(k1 1 - q 1)*(k3 1 - q 1)*(k1 1 + q 1)*(k3 1 + q 1)*(8*k3 2 + 3*q 2) + (k1 2*k3 2 -
    k3 2*q 2 + q 4)*(825*(-1 + 5*eps 1)*k3 8*q 8 + 20*(-1 + 4*eps 1)*k1 2*k3 6*q 6*(622*k3 2 - 9*q 2) + 840*(1 + eps 1)*k1 12*k3 2*(k3 2 - 3*q 2) -
    5*(-1 + 3*eps 1)*k1 4*k3 4*q 4*(6458*k3 4 + 4791*k3 2*q 2 + 1224*q 4) + 5*k1 10*(3927*k3 6 - 1492*k3 4*q 2 + 1260*k3 2*q 4 + 252*q 6) - (-1 +
    2*eps 1)*k1 6*k3 2*(840*k3 8 - 66925*k3 6*q 2 - 96793*k3 4*q 4 - 17715*k3 2*q 6 + 630*q 8) - (-1 + eps 1)*k1 8*(17535*k3 8 - 81190*k3 6*q 2 -
    5272*k3 4*q 4 - 9765*k3 2*q 6 + 2520*q 8)))/(k1 10*k3 2*(k1 2*k3 2 - k3 2*q 2 + q 4))) + 15*(55*(2 - 11*eps 1)*k3 6*q 10 - (-2 + 9*eps 1)*k1
    2*k3 4*q 8*(811*k3 2 - 12*q 2) - 56*(2 + 3*eps 1)*k1 14*(k3 2 - 3*q 2) - (-2 + 3*eps 1)*k1 8*k3 2*q 2*(11*k3 4 - 9634*k3 2*q 2 - 1356*q 4) - (2
    + eps 1)*k1 12*(1885*k3 4 - 292*k3 2*q 2 + 336*q 4) + (-2 + 7*eps 1)*k1 4*k3 2*q 6*(2434*k3 4 + 1593*k3 2*q 2 + 408*q 4) - 2*(-2 + 5*eps 1)*k1
    6*k3 2*q 4*(943*k3 4 + 3144*k3 2*q 2 + 690*q 4) + (-2 + eps 1)*k1 10*(329*k3 6 - 6836*k3 4*q 2 - 148*k3 2*q 4 - 168*q 6))*2*(Real.log (abs ((k1
    1 + q 1)/(k1 1 - q 1))))/k1 11 - 210*(k3 1 - q 1)*(k3 1 + q 1)*(8*k3 2 + 3*q 2)*(8*(1 + eps 1)*k1 6*k3 2 - 4*k1 4*(3*k3 2*q 2 + q 4) - (-1 + eps
    1)*k1 2*(15*k3 6 - 46*k3 4*q 2 + 47*k3 2*q 4 - 8*q 6) - (-1 + 2*eps 1)*k3 2*(k3 6 + k3 2*q 4 - 2*q 6))*2*(Real.log (abs ((k3 1 + q 1)/(k3 1 - q
    1))))/(k1 4*k3 3) + 840*(-k1 2 + q 2)*((-8)*k3 4 + 5*k3 2*q 2 + 3*q 4)*(2*(1 + eps 1)*k1 4*k3 2 + (-2 + eps 1)*q 4*(-k3 2 + q 2) + k1 2*q
    2*(-((4 + eps 1)*k3 2) + (2 + 3*eps 1)*q 2))*(Real.log ((-(k3 2*q 2) + q 4 + k1 2*(k3 2 + q 2) + 2*k1 1*q 1*(Real.sqrt (k1 2*k3 2 - k3 2*q 2 + q
    4)))/(-(k3 2*q 2) + q 4 + k1 2*(k3 2 + q 2) - 2*k1 1*q 1*(Real.sqrt (k1 2*k3 2 - k3 2*q 2 + q 4)))))/((k1 1*(k1 2*k3 2 - k3 2*q 2 + q
    4))^(1.5:ℝ)) + 17280*k3 3*(power (k1 2 - q 2) 3)*((1 + eps 1)*k1 6 - 3*k1 4*q 2 + (-1 + 2*eps 1)*q 4*(k3 2 + q 2) + k1 2*q 2*((1 + 2*eps 1)*k3 2
    - 3*(-1 + eps 1)*q 2))*(Real.log (-((4*k3 2*q 2 + 2*(k1 2 - q 2)*(k1 2 - q 2) + 4*k3 1*q 1*(Real.sqrt (k1 4 + ((-2)*k1 2 + k3 2)*q 2 + q
    4)))/((-4)*k3 2*q 2 - 2*(k1 2 - q 2)*(k1 2 - q 2) + 4*k3 1*q 1*(Real.sqrt (k1 4 + ((-2)*k1 2 + k3 2)*q 2 + q 4))))))/(k1 4*((k1 4 - 2*k1 2*q 2 +
    k3 2*q 2 + q 4)^(1.5:ℝ))))/(6.20928e6*q 5)

/-- `kernel_gamma2t_iso` (`src/gamma2t_1loop.c:119-189`). -/
def g2tIso (k1 k2 k3 q : ℝ) : ℝ := g2tIsoE (pw k1) (pw (k2/k1 - 1)) (pw k3) (pw q)

end

end Verif
