import Verif.Model.Powers
import Mathlib.Analysis.SpecialFunctions.Pow.Real

/-!
# `src/gamma2d_1loop.c`

The kernels, transcribed by `tools/gamma2.py`.  A cell `k1[n]` of the arrays filled by `powers` (`src/common.c:93-99`, see `C01_powers`)
is written `k1 n`, the arrays being functions of the index (`pw x n = x^n`); the largest index used is 19, inside the 20 cells of the arrays.  `kernel_gamma2d_iso`, which is never called, is
in `Model/Gamma2Iso.lean`.
-/

namespace Verif

noncomputable section

open Real

/-- `kernel1` of `kernel_gamma2d_exact` (`src/gamma2d_1loop.c:19-64`). -/
def g2dExact1 (k1 k2 k3 q : ℕ → ℝ) : ℝ :=
  π*(15*k1 6*k2 6*k3 4*(3*(k1 2 - k2 2)*(k1 2 - k2 2)*(13*k1 4 - 4*k1 2*k2 2 + 13*k2 4) - (k1 2 + k2 2)*(805*k1 4 - 2306*k1 2*k2 2 + 805*k2 4)*k3 2
    + (377*k1 4 + 940*k1 2*k2 2 + 377*k2 4)*k3 4 + 361*(k1 2 + k2 2)*k3 6 + 28*k3 8)/q 4 - 10*k1 6*k2 6*k3 4*(3*(k1 2 + k2 2)*(911*k1 4 - 1570*k1
    2*k2 2 + 911*k2 4) + ((-22261)*k1 4 + 45566*k1 2*k2 2 - 22261*k2 4)*k3 2 + 12037*(k1 2 + k2 2)*k3 4 + 6891*k3 6)/q 2 + k1 4*k2 4*k3 2*(3150*k1
    2*k2 2*(k1 2 - k2 2)*(k1 2 - k2 2)*(k1 2 + k2 2) + 3*(19475*k1 8 - 139742*k1 6*k2 2 + 246974*k1 4*k2 4 - 139742*k1 2*k2 6 + 19475*k2 8)*k3 2 -
    2*(k1 2 + k2 2)*(53220*k1 4 - 178337*k1 2*k2 2 + 53220*k2 4)*k3 4 + (38925*k1 4 + 9532*k1 2*k2 2 + 38925*k2 4)*k3 6 + 9090*(k1 2 + k2 2)*k3 8) -
    15*k1 2*k2 2*(189*k1 4*k2 4*(k1 2 - k2 2)*(k1 2 - k2 2)*(k1 2 + k2 2) - 84*k1 4*k2 4*(43*k1 4 - 80*k1 2*k2 2 + 43*k2 4)*k3 2 + (k1 2 + k2
    2)*(1949*k1 8 - 10643*k1 6*k2 2 + 20573*k1 4*k2 4 - 10643*k1 2*k2 6 + 1949*k2 8)*k3 4 + 2*((-1959)*k1 8 + 3283*k1 6*k2 2 + 1907*k1 4*k2 4 +
    3283*k1 2*k2 6 - 1959*k2 8)*k3 6 + 3*(k1 2 + k2 2)*(663*k1 4 - 811*k1 2*k2 2 + 663*k2 4)*k3 8 - 20*(k1 4 + k2 4)*k3 10)*q 2 + 45*((-252)*k1 6*k2
    6*(k1 2 - k2 2)*(k1 2 - k2 2) + 168*k1 6*k2 6*(k1 2 + k2 2)*k3 2 + (55*k1 12 - 285*k1 10*k2 2 + 157*k1 8*k2 4 + 230*k1 6*k2 6 + 157*k1 4*k2 8 -
    285*k1 2*k2 10 + 55*k2 12)*k3 4 - 3*(k1 2 + k2 2)*(55*k1 8 - 201*k1 6*k2 2 + 156*k1 4*k2 4 - 201*k1 2*k2 6 + 55*k2 8)*k3 6 + 3*(55*k1 8 - 51*k1
    6*k2 2 - 51*k1 2*k2 6 + 55*k2 8)*k3 8 - 55*(k1 6 + k2 6)*k3 10)*q 4)/(1.55232e6*k1 8*k2 8*k3 4)

/-- `kernel2` of `kernel_gamma2d_exact` (`src/gamma2d_1loop.c:66-82`). -/
def g2dExact2 (k1 k2 k3 q : ℕ → ℝ) : ℝ :=
  (-(π*(k1 1/q 1 - 1)*(k1 1/q 1 - 1)*(k1 1/q 1 + 1)*(k1 1/q 1 + 1)*(39*k1 12 + 165*(power (k2 2 - k3 2) 3)*q 6 - k1 10*(582*k2 2 + 791*k3 2 + 1947*q
    2) - 3*k1 2*(k2 1 - k3 1)*(k2 1 + k3 1)*q 4*(558*k2 4 - 473*k2 2*k3 2 - 85*k3 4 + 3*(95*k2 2 - 51*k3 2)*q 2) + k1 6*(492*k2 6 - 633*k2 4*k3 2 +
    390*k2 2*k3 4 + 151*k3 6 + ((-6465)*k2 4 + 758*k2 2*k3 2 + 179*k3 4)*q 2 - 3*(2428*k2 2 + 371*k3 2)*q 4 + 219*q 6) + k1 8*(51*k2 4 + 601*k3 4 +
    1787*k3 2*q 2 + 1689*q 4 + k2 2*(2120*k3 2 + 6891*q 2)) + k1 4*q 2*(1017*k2 6 + 269*k3 6 - 321*k3 4*q 2 + 405*k3 2*q 4 + k2 4*((-1677)*k3 2 +
    7269*q 2) + k2 2*(391*k3 4 - 4376*k3 2*q 2 + 471*q 4)))*(LFunc (k1 1) (q 1))))/(413952*k1 9*k2 2*q 1)

/-- `kernel3` of `kernel_gamma2d_exact` (`src/gamma2d_1loop.c:84-101`). -/
def g2dExact3 (k1 k2 k3 q : ℕ → ℝ) : ℝ :=
  (-(π*(k2 1/q 1 - 1)*(k2 1/q 1 - 1)*(k2 1/q 1 + 1)*(k2 1/q 1 + 1)*(k2 6*(492*k1 6 + 39*k2 6 - 791*k2 4*k3 2 + 601*k2 2*k3 4 + 151*k3 6 + k1
    4*(51*k2 2 - 633*k3 2) + k1 2*((-582)*k2 4 + 2120*k2 2*k3 2 + 390*k3 4)) + k2 4*(1017*k1 6 - 1947*k2 6 + 1787*k2 4*k3 2 + 179*k2 2*k3 4 + 269*k3
    6 - 3*k1 4*(2155*k2 2 + 559*k3 2) + k1 2*(6891*k2 4 + 758*k2 2*k3 2 + 391*k3 4))*q 2 - k2 2*(3*(k1 1 - k2 1)*(k1 1 + k2 1)*(558*k1 4 - 1865*k1
    2*k2 2 + 563*k2 4) + ((-3093)*k1 4 + 4376*k1 2*k2 2 + 1113*k2 4)*k3 2 + 3*(388*k1 2 + 107*k2 2)*k3 4 + 255*k3 6)*q 4 + 3*(55*k1 6 - 15*k1
    4*(19*k2 2 + 11*k3 2) + (k2 1 - k3 1)*(k2 1 + k3 1)*(73*k2 4 + 208*k2 2*k3 2 + 55*k3 4) + k1 2*(157*k2 4 + 438*k2 2*k3 2 + 165*k3 4))*q
    6)*(LFunc (k2 1) (q 1))))/(413952*k1 2*k2 9*q 1)

/-- `kernel4` of `kernel_gamma2d_exact` (`src/gamma2d_1loop.c:103-114`). -/
def g2dExact4 (k1 k2 k3 q : ℕ → ℝ) : ℝ :=
  π*(2*(power (k3 1/q 1) 4) + 7*(k3 1/q 1)*(k3 1/q 1) - 9)*(k3 4*(k1 6 - 9*k1 4*k2 2 - 9*k1 2*k2 4 + k2 6 + 16*(k1 2 - k2 2)*(k1 2 - k2 2)*k3 2 -
    15*(k1 2 + k2 2)*k3 4 - 2*k3 6) + 2*k3 2*((k1 2 - k2 2)*(k1 2 - k2 2)*(k1 2 + k2 2) - 4*(7*k1 4 - 17*k1 2*k2 2 + 7*k2 4)*k3 2 + 23*(k1 2 + k2
    2)*k3 4)*q 2 - (3*(k1 2 - k2 2)*(k1 2 - k2 2)*(k1 2 + k2 2) - 4*(13*k1 4 - 24*k1 2*k2 2 + 13*k2 4)*k3 2 + 47*(k1 2 + k2 2)*k3 4 + 2*k3 6)*q 4 +
    4*((-3)*(k1 2 - k2 2)*(k1 2 - k2 2) + 2*(k1 2 + k2 2)*k3 2 + k3 4)*q 6)*(LFunc (k3 1) (q 1))/(59136*k1 2*k2 2*k3 5*q 1)

/-- `kernel5` of `kernel_gamma2d_exact` (`src/gamma2d_1loop.c:116-126`). -/
def g2dExact5 (k1 k2 k3 q : ℕ → ℝ) : ℝ :=
  3*k3 3*π*(k1 2 - q 2)*(k1 2 - q 2)*(-k2 2 + q 2)*(-k2 2 + q 2)*(WFunc (k1 1) (k2 1) (k3 1) (q 1))/(4312*k1 2*k2 2*q 5*(Real.sqrt (k1 2*k2 2 - (k1
    2 + k2 2 - k3 2)*q 2 + q 4))) + k2 1*π*(k1 2 - q 2)*(k1 2 - q 2)*(2*k3 4 + 7*k3 2*q 2 - 9*q 4)*(WFunc (k1 1) (k3 1) (k2 1) (q 1))/(7392*k1 2*q
    5*(Real.sqrt (k1 2*k3 2 - (k1 2 - k2 2 + k3 2)*q 2 + q 4))) + k1 1*π*(k2 2 - q 2)*(k2 2 - q 2)*(2*k3 4 + 7*k3 2*q 2 - 9*q 4)*(WFunc (k2 1) (k3
    1) (k1 1) (q 1))/(7392*k2 2*q 5*(Real.sqrt (k1 2*q 2 + (k2 1 - q 1)*(k3 1 - q 1)*(k2 1 + q 1)*(k3 1 + q 1))))

/-- `kernel_gamma2d_exact` (`src/gamma2d_1loop.c:10-132`). -/
def g2dExact (k1 k2 k3 q : ℝ) : ℝ :=
  g2dExact1 (pw k1) (pw k2) (pw k3) (pw q) + g2dExact2 (pw k1) (pw k2) (pw k3) (pw q) + g2dExact3 (pw k1) (pw k2) (pw k3) (pw q) + g2dExact4 (pw k1) (pw k2) (pw k3) (pw q) + g2dExact5 (pw k1) (pw k2) (pw k3) (pw q)

/-- The expression of `kernel_gamma2d_highk` (`src/gamma2d_1loop.c:208-237`). -/
def g2dHighkE (k1 k2 k3 q : ℕ → ℝ) : ℝ :=
  π*(8085*k1 4*k2 4*k3 6*(5*(k1 2 - k2 2)*(k1 2 - k2 2) - 3*(k1 2 + k2 2)*k3 2 - 2*k3 4)/q 2 + 7*k1 2*k2 2*k3 2*(28*(power (k1 2 - k2 2) 4)*(k1 2 +
    k2 2) + 3*(k1 2 - k2 2)*(k1 2 - k2 2)*(1094*k1 4 - 6321*k1 2*k2 2 + 1094*k2 4)*k3 2 - 6*(k1 2 + k2 2)*(988*k1 4 - 3189*k1 2*k2 2 + 988*k2 4)*k3
    4 + (1970*k1 4 + 741*k1 2*k2 2 + 1970*k2 4)*k3 6 + 576*(k1 2 + k2 2)*k3 8 + 72*k3 10) + ((-14)*(power ((k1 1 - k2 1)*(k1 1 + k2 1)) 4)*(k1 2 +
    k2 2)*(12*k1 4 - 55*k1 2*k2 2 + 12*k2 4) + 7*(28*k1 12 + 4005*k1 8*k2 4 - 8066*k1 6*k2 6 + 4005*k1 4*k2 8 + 28*k2 12)*k3 2 - 6*(k1 2 + k2
    2)*(2999*k1 8 - 16730*k1 6*k2 2 + 31403*k1 4*k2 4 - 16730*k1 2*k2 6 + 2999*k2 8)*k3 4 + (34488*k1 8 - 51644*k1 6*k2 2 - 33313*k1 4*k2 4 -
    51644*k1 2*k2 6 + 34488*k2 8)*k3 6 - 2*(k1 2 + k2 2)*(7649*k1 4 - 8021*k1 2*k2 2 + 7649*k2 4)*k3 8 - 1296*(k1 4 + k2 4)*k3 10 + 504*(k1 2 + k2
    2)*k3 12 - 432*k3 14)*q 2)/(339570*k1 6*k2 6*k3 4)

/-- `kernel_gamma2d_highk` (`src/gamma2d_1loop.c:208-237`). -/
def g2dHighk (k1 k2 k3 q : ℝ) : ℝ := g2dHighkE (pw k1) (pw k2) (pw k3) (pw q)

/-- The expression of `kernel_gamma2d_lowk` (`src/gamma2d_1loop.c:239-257`). -/
def g2dLowkE (k1 k2 k3 q : ℕ → ℝ) : ℝ :=
  π*(2426*k1 8 - 4*k1 6*(3110*k2 2 + 2087*k3 2 + 3006*q 2) + k1 2*(2*((-6220)*k2 6 + 7198*k2 4*k3 2 + 5449*k2 2*k3 4 + 1073*k3 6) + (12024*k2 4 -
    76684*k2 2*k3 2 - 20085*k3 4)*q 2) + k1 4*(20028*k2 4 + 3363*k3 4 + 44518*k3 2*q 2 + 4*k2 2*(3599*k3 2 + 3006*q 2)) + (k2 1 - k3 1)*(k2 1 + k3
    1)*(2426*k2 6 - 413*k3 6 + 12409*k3 4*q 2 - 18*k2 4*(329*k3 2 + 668*q 2) + k2 2*((-2559)*k3 4 + 32494*k3 2*q 2)))/(339570*k1 2*k2 2*q 4)

/-- `kernel_gamma2d_lowk` (`src/gamma2d_1loop.c:239-257`). -/
def g2dLowk (k1 k2 k3 q : ℝ) : ℝ := g2dLowkE (pw k1) (pw k2) (pw k3) (pw q)

/-- The expression of `kernel_gamma2d_elongate` (`src/gamma2d_1loop.c:274-363`); it uses neither `k1` nor `k2`. -/
def g2dElongateE (k eps k3 q : ℕ → ℝ) : ℝ :=
  π*(4*k 16*q 1*(42100*k 6 + 13841*k3 6 - 10132*k3 4*q 2 - 405090*k3 2*q 4 - 139020*q 6 - 3*k 4*(13429*k3 2 + 512318*q 2) + k 2*(54346*k3 4 +
    144594*k3 2*q 2 - 2024631*q 4))/7 - 4*k 10*q 1*(1350*k 12*k3 4 - 7425*k3 8*q 8 - 15*k 10*(1501*k3 6 + 1318*k3 4*q 2 - 210*k3 2*q 4 + 189*q 6) -
    2*k 8*(7050*k3 8 - 227830*k3 6*q 2 + 370461*k3 4*q 4 - 50400*k3 2*q 6 + 11340*q 8) + k 6*((-5415)*k3 10 + 120370*k3 8*q 2 - 250234*k3 6*q 4 +
    148950*k3 4*q 6 - 7560*k3 2*q 8) - 15*k 4*(2595*k3 8*q 4 - 6566*k3 6*q 6 + 471*k3 4*q 8) + 135*k 2*(221*k3 8*q 6 - 146*k3 6*q 8))/k3 4 - 15*k
    9*(k 1 - q 1)*(k 1 - q 1)*(k 1 + q 1)*(k 1 + q 1)*((-582)*k 10 + 495*k3 4*q 6 + k 8*(2120*k3 2 + 6891*q 2) + k 6*(390*k3 4 + 758*k3 2*q 2 -
    7284*q 4) + k 4*(391*k3 4*q 2 - 4376*k3 2*q 4 + 471*q 6) - 6*k 2*(194*k3 4*q 4 - 219*k3 2*q 6))*2*(Real.log (abs ((k 1 + q 1)/(k 1 - q 1)))) -
    105*k 16*(2*k3 4 + 7*k3 2*q 2 - 9*q 4)*(15*k3 8 - 46*k3 6*q 2 + 47*k3 4*q 4 - 8*k3 2*q 6 + k 4*(9*k3 4 + 2*k3 2*q 2 - 3*q 4) + 8*k 2*(4*k3 6 -
    17*k3 4*q 2 + 12*k3 2*q 4 - 3*q 6))*2*(Real.log (abs ((k3 1 + q 1)/(k3 1 - q 1))))/k3 5 + 420*k 19*q 3*(-k3 2 + q 2)*(2*k3 2 + 9*q 2)*((-4)*k
    1*(Real.sqrt (q 2*(k 2 - k3 2 + q 2))) + q 1*(4*k 2 - 3*k3 2 + 3*q 2)*(Real.log ((2*k 2*q 1 - k3 2*q 1 + q 3 + 2*k 1*(Real.sqrt (q 2*(k 2 - k3 2
    + q 2))))/(2*k 2*q 1 - k3 2*q 1 + q 3 - 2*k 1*(Real.sqrt (q 2*(k 2 - k3 2 + q 2)))))))/((q 2*(k 2 - k3 2 + q 2))^(1.5:ℝ)) + 2160*k 16*k3 3*q
    3*(k 2 - q 2)*(k 2 - q 2)*(4*k3 1*(Real.sqrt (q 2*(-k 2 + k3 2 + q 2))) + q 1*(3*k 2 - 4*k3 2 - 3*q 2)*(Real.log (-((-(k 2*q 1) + 2*k3 2*q 1 + q
    3 + 2*k3 1*(Real.sqrt (q 2*(-k 2 + k3 2 + q 2))))/(k 2*q 1 - 2*k3 2*q 1 - q 3 + 2*k3 1*(Real.sqrt (q 2*(-k 2 + k3 2 + q 2))))))))/((q 2*(-k 2 +
    k3 2 + q 2))^(1.5:ℝ)) + (4*k 14*q 3*(218739*k 6 + 46820*k3 6 - 49266*k3 4*q 2 + 187740*k3 2*q 4 - 22995*q 6 - 6*k 4*(66043*k3 2 - 333130*q 2) +
    k 2*(88699*k3 4 - 918974*k3 2*q 2 + 847245*q 4))/7 + 4*k 8*q 1*(585*k 14*k3 4 - 2475*k3 10*q 8 + 15*k 2*k3 8*q 6*(20*k3 2 - 459*q 2) + 45*k 4*k3
    6*q 4*(202*k3 4 + 148*k3 2*q 2 + 135*q 4) - 15*k 12*(805*k3 6 + 1822*k3 4*q 2 - 210*k3 2*q 4 + 189*q 6) + k 10*(5655*k3 8 + 222610*k3 6*q 2 -
    419226*k3 4*q 4 + 54180*k3 2*q 6 - 11340*q 8) + 2*k 6*k3 4*(210*k3 8 - 34455*k3 6*q 2 + 4766*k3 4*q 4 - 28605*k3 2*q 6 + 5175*q 8) + k 8*k3
    2*(5415*k3 8 - 120370*k3 6*q 2 + 250234*k3 4*q 4 - 148950*k3 2*q 6 + 7560*q 8))/k3 4 - 15*k 7*(k 1 - q 1)*(k 1 - q 1)*(k 1 + q 1)*(k 1 + q
    1)*(39*k 12 - 165*k3 6*q 6 - k 10*(791*k3 2 + 1947*q 2) + k 8*(601*k3 4 + 1787*k3 2*q 2 + 1689*q 4) + k 6*(151*k3 6 + 179*k3 4*q 2 - 1113*k3 2*q
    4 + 219*q 6) + k 4*(269*k3 6*q 2 - 321*k3 4*q 4 + 405*k3 2*q 6) - 51*k 2*(5*k3 6*q 4 + 9*k3 4*q 6))*2*(Real.log (abs ((k 1 + q 1)/(k 1 - q 1))))
    + 105*k 14*(2*k3 4 + 7*k3 2*q 2 - 9*q 4)*(k 6*(k3 4 + 2*k3 2*q 2 - 3*q 4) + 4*k 4*(4*k3 6 - 14*k3 4*q 2 + 13*k3 2*q 4 - 3*q 6) - 2*k3 4*(k3 6 +
    k3 2*q 4 - 2*q 6) + k 2*((-15)*k3 8 + 46*k3 6*q 2 - 47*k3 4*q 4 + 8*k3 2*q 6))*2*(Real.log (abs ((k3 1 + q 1)/(k3 1 - q 1))))/k3 5 - 840*k 17*q
    4*((-2)*k3 4 - 7*k3 2*q 2 + 9*q 4)*(Real.log ((2*k 2*q 1 - k3 2*q 1 + q 3 + 2*k 1*(Real.sqrt (q 2*(k 2 - k3 2 + q 2))))/(2*k 2*q 1 - k3 2*q 1 +
    q 3 - 2*k 1*(Real.sqrt (q 2*(k 2 - k3 2 + q 2))))))/(Real.sqrt (q 2*(k 2 - k3 2 + q 2))) + 4320*k 14*k3 3*q 4*(k 2 - q 2)*(k 2 - q 2)*(Real.log
    (-((-(k 2*q 1) + 2*k3 2*q 1 + q 3 + 2*k3 1*(Real.sqrt (q 2*(-k 2 + k3 2 + q 2))))/(k 2*q 1 - 2*k3 2*q 1 - q 3 + 2*k3 1*(Real.sqrt (q 2*(-k 2 +
    k3 2 + q 2)))))))/(Real.sqrt (q 2*(-k 2 + k3 2 + q 2))))/eps 2)/(6.20928e6*k 18*q 5)

open Classical in
/-- `kernel_gamma2d_elongate` (`src/gamma2d_1loop.c:260-365`). -/
def g2dElongate (k1 k2 k3 q : ℝ) : ℝ :=
  if k2 < k1 then g2dElongateE (pw k1) (pw (k2/k1)) (pw k3) (pw q) else g2dElongateE (pw k2) (pw (k1/k2)) (pw k3) (pw q)

/-- Term 0 of `kernel_gamma2d_coll` (`src/gamma2d_1loop.c:372-513`). -/
def g2dColl0 (k1 k2 _eps q : ℕ → ℝ) : ℝ :=
  π*((-84)*k1 7*k2 7*q 3*(43*k1 6 + 43*k2 6 - 3408*k2 4*q 2 - 2275*k2 2*q 4 + 180*q 6 - k1 4*(403*k2 2 + 3408*q 2) + k1 2*((-403)*k2 4 + 7736*k2 2*q
    2 - 2275*q 4)) + 12*k1 1*k2 1*q 1*(195*k1 14*k2 6 + 825*k2 12*q 8 - 5*k1 2*k2 10*q 6*(1949*k2 2 + 855*q 2) + 5*k1 4*k2 8*q 4*(3895*k2 4 +
    8694*k2 2*q 2 + 471*q 4) + k1 10*k2 2*(510*k2 8 + 6590*k2 6*q 2 - 139742*k2 4*q 4 + 43470*k2 2*q 6 - 4275*q 8) - 5*k1 12*(90*k2 8 + 1822*k2 6*q
    2 - 3895*k2 4*q 4 + 1949*k2 2*q 6 - 165*q 8) + k1 8*k2 4*((-450)*k2 8 + 6590*k2 6*q 2 + 246974*k2 4*q 4 - 49650*k2 2*q 6 + 2355*q 8) + k1 6*k2
    6*(195*k2 8 - 9110*k2 6*q 2 - 139742*k2 4*q 4 - 49650*k2 2*q 6 + 3450*q 8)) - 45*k2 7*(k1 1 - q 1)*(k1 1 - q 1)*(k1 1 + q 1)*(k1 1 + q 1)*(13*k1
    12 + 55*k2 6*q 6 - k1 10*(194*k2 2 + 649*q 2) + k1 8*(17*k2 4 + 2297*k2 2*q 2 + 563*q 4) + k1 6*(164*k2 6 - 2155*k2 4*q 2 - 2428*k2 2*q 4 + 73*q
    6) + k1 4*(339*k2 6*q 2 + 2423*k2 4*q 4 + 157*k2 2*q 6) - 3*k1 2*(186*k2 6*q 4 + 95*k2 4*q 6))*2*(Real.log (abs ((k1 1 + q 1)/(k1 1 - q 1)))) -
    45*k1 7*(k2 1 - q 1)*(k2 1 - q 1)*(k2 1 + q 1)*(k2 1 + q 1)*(k1 6*(164*k2 6 + 339*k2 4*q 2 - 558*k2 2*q 4 + 55*q 6) + k2 6*(13*k2 6 - 649*k2 4*q
    2 + 563*k2 2*q 4 + 73*q 6) + k1 4*(17*k2 8 - 2155*k2 6*q 2 + 2423*k2 4*q 4 - 285*k2 2*q 6) + k1 2*((-194)*k2 10 + 2297*k2 8*q 2 - 2428*k2 6*q 4
    + 157*k2 4*q 6))*2*(Real.log (abs ((k2 1 + q 1)/(k2 1 - q 1)))) - 7560*k1 10*k2 7*q 4*(k2 2 - q 2)*(k2 2 - q 2)*(Real.log ((2*k1 2*q 1 - k2 2*q
    1 + q 3 + 2*k1 1*(Real.sqrt (q 2*(k1 2 - k2 2 + q 2))))/(2*k1 2*q 1 - k2 2*q 1 + q 3 - 2*k1 1*(Real.sqrt (q 2*(k1 2 - k2 2 + q
    2))))))/(Real.sqrt (q 2*(k1 2 - k2 2 + q 2))) - 7560*k1 7*k2 10*q 4*(k1 2 - q 2)*(k1 2 - q 2)*(Real.log (-((-(k1 2*q 1) + 2*k2 2*q 1 + q 3 +
    2*k2 1*(Real.sqrt (q 2*(-k1 2 + k2 2 + q 2))))/(k1 2*q 1 - 2*k2 2*q 1 - q 3 + 2*k2 1*(Real.sqrt (q 2*(-k1 2 + k2 2 + q 2)))))))/(Real.sqrt (q
    2*(-k1 2 + k2 2 + q 2))))/(6.20928e6*k1 9*k2 9*q 5)

/-- Term 1 of `kernel_gamma2d_coll` (`src/gamma2d_1loop.c:372-513`). -/
def g2dColl1 (k1 k2 eps q : ℕ → ℝ) : ℝ :=
  eps 2*π*(8*k1 7*k2 9*q 1*(353*k1 6 + 353*k2 6 - 12896*k2 4*q 2 - 30541*k2 2*q 4 + 1785*q 6 - k1 4*(2033*k2 2 + 12896*q 2) + k1 2*((-2033)*k2 4 +
    31896*k2 2*q 2 - 30541*q 4)) - 4*k1 1*k2 3*q 1*(12075*k1 12*k2 6 + 7425*k2 10*q 8 - 90*k1 2*k2 8*q 6*(653*k2 2 + 219*q 2) + 15*k1 4*k2 6*q
    4*(7096*k2 4 + 6566*k2 2*q 2 - 405*q 4) + k1 6*k2 4*(12075*k2 8 - 222610*k2 6*q 2 - 250234*k2 4*q 4 + 57210*k2 2*q 6 - 6075*q 8) - 5*k1
    10*(4503*k2 8 + 44522*k2 6*q 2 - 21288*k2 4*q 4 + 11754*k2 2*q 6 - 1485*q 8) + k1 8*((-22515)*k2 10 + 455660*k2 8*q 2 - 250234*k2 6*q 4 +
    98490*k2 4*q 6 - 19710*k2 2*q 8)) + 15*k2 9*(k1 1 - q 1)*(k1 1 - q 1)*(k1 1 + q 1)*(k1 1 + q 1)*(791*k1 10 + 495*k2 4*q 6 - k1 8*(2120*k2 2 +
    1787*q 2) + k1 6*(633*k2 4 - 758*k2 2*q 2 + 1113*q 4) + k1 4*(1677*k2 4*q 2 + 4376*k2 2*q 4 - 405*q 6) - 3*k1 2*(1031*k2 4*q 4 + 438*k2 2*q
    6))*2*(Real.log (abs ((k1 1 + q 1)/(k1 1 - q 1)))) + 15*k1 7*k2 2*(k2 1 - q 1)*(k2 1 - q 1)*(k2 1 + q 1)*(k2 1 + q 1)*(k2 4*(791*k2 6 - 1787*k2
    4*q 2 + 1113*k2 2*q 4 - 405*q 6) + 3*k1 4*(211*k2 6 + 559*k2 4*q 2 - 1031*k2 2*q 4 + 165*q 6) - 2*k1 2*(1060*k2 8 + 379*k2 6*q 2 - 2188*k2 4*q 4
    + 657*k2 2*q 6))*2*(Real.log (abs ((k2 1 + q 1)/(k2 1 - q 1)))) + 420*k1 10*k2 9*q 3*(k2 2 - q 2)*(k2 2 - q 2)*((-36)*k1 1*(Real.sqrt (q 2*(k1 2
    - k2 2 + q 2))) + q 1*(14*k1 2 - 5*k2 2 + 5*q 2)*(Real.log ((2*k1 2*q 1 - k2 2*q 1 + q 3 + 2*k1 1*(Real.sqrt (q 2*(k1 2 - k2 2 + q 2))))/(2*k1
    2*q 1 - k2 2*q 1 + q 3 - 2*k1 1*(Real.sqrt (q 2*(k1 2 - k2 2 + q 2)))))))/((q 2*(k1 2 - k2 2 + q 2))^(1.5:ℝ)) - 420*k1 7*k2 12*q 3*(k1 2 - q
    2)*(k1 2 - q 2)*(36*k2 1*(Real.sqrt (q 2*(-k1 2 + k2 2 + q 2))) + q 1*(5*k1 2 - 14*k2 2 - 5*q 2)*(Real.log (-((-(k1 2*q 1) + 2*k2 2*q 1 + q 3 +
    2*k2 1*(Real.sqrt (q 2*(-k1 2 + k2 2 + q 2))))/(k1 2*q 1 - 2*k2 2*q 1 - q 3 + 2*k2 1*(Real.sqrt (q 2*(-k1 2 + k2 2 + q 2))))))))/((q 2*(-k1 2 +
    k2 2 + q 2))^(1.5:ℝ)))/(6.20928e6*k1 9*k2 9*q 5)

/-- Term 2 of `kernel_gamma2d_coll` (`src/gamma2d_1loop.c:372-513`). -/
def g2dColl2 (k1 k2 eps q : ℕ → ℝ) : ℝ :=
  eps 4*π*(17280*k1 7*k2 11*q 1*(k1 2 - q 2)*(k2 2 - q 2) + 4*k1 7*k2 11*(304*k1 6 + 304*k2 6 - 4416*k2 4*q 2 + 21649*k2 2*q 4 + 224*q 6 - 64*k1
    4*(38*k2 2 + 69*q 2) + k1 2*((-2432)*k2 4 + 15872*k2 2*q 2 + 21649*q 4))/q 1 + 4*k1 1*k2 5*q 1*(5655*k1 10*k2 6 + 7425*k2 8*q 8 + 45*k1
    4*(865*k2 8*q 4 + 148*k2 6*q 6) + k1 6*k2 2*(5655*k2 8 - 120370*k2 6*q 2 + 9532*k2 4*q 4 + 6660*k2 2*q 6 - 6885*q 8) + 5*k1 8*(2820*k2 8 -
    24074*k2 6*q 2 + 7785*k2 4*q 4 - 5967*k2 2*q 6 + 1485*q 8) - 2295*k1 2*(13*k2 8*q 6 + 3*k2 6*q 8)) - 15*k2 11*(k1 1 - q 1)*(k1 1 - q 1)*(k1 1 +
    q 1)*(k1 1 + q 1)*(601*k1 8 + 495*k2 2*q 6 + k1 6*(390*k2 2 + 179*q 2) + k1 4*(391*k2 2*q 2 - 321*q 4) - 3*k1 2*(388*k2 2*q 4 + 153*q
    6))*2*(Real.log (abs ((k1 1 + q 1)/(k1 1 - q 1)))) - 15*k1 7*k2 4*(k2 1 - q 1)*(k2 1 - q 1)*(k2 1 + q 1)*(k2 1 + q 1)*(601*k2 8 + 179*k2 6*q 2 -
    321*k2 4*q 4 - 459*k2 2*q 6 + k1 2*(390*k2 6 + 391*k2 4*q 2 - 1164*k2 2*q 4 + 495*q 6))*2*(Real.log (abs ((k2 1 + q 1)/(k2 1 - q 1)))) + 105*k1
    10*k2 11*q 1*(power (k2 2 - q 2) 6)*(Real.sqrt (q 2*(k1 2 - k2 2 + q 2)))*((-4)*k1 1*(Real.sqrt (q 2*(k1 2 - k2 2 + q 2)))*((-10)*k1 2 + 17*(-k2
    2 + q 2)) + q 1*(16*k1 4 - 60*k1 2*(k2 2 - q 2) + 17*(k2 2 - q 2)*(k2 2 - q 2))*(Real.log ((2*k1 2*q 1 - k2 2*q 1 + q 3 + 2*k1 1*(Real.sqrt (q
    2*(k1 2 - k2 2 + q 2))))/(2*k1 2*q 1 - k2 2*q 1 + q 3 - 2*k1 1*(Real.sqrt (q 2*(k1 2 - k2 2 + q 2)))))))/(power (k1 2 - k2 2 + q 2) 3*(power
    (-(k2 2*q 1) + q 3) 4)) + 105*k1 7*k2 14*q 1*(power (k1 2 - q 2) 6)*(Real.sqrt (q 2*(-k1 2 + k2 2 + q 2)))*((-4)*k2 1*(Real.sqrt (q 2*(-k1 2 +
    k2 2 + q 2)))*((-17)*k1 2 - 10*k2 2 + 17*q 2) + q 1*(17*k1 4 + 16*k2 4 + 60*k2 2*q 2 + 17*q 4 - 2*k1 2*(30*k2 2 + 17*q 2))*(Real.log (-((-(k1
    2*q 1) + 2*k2 2*q 1 + q 3 + 2*k2 1*(Real.sqrt (q 2*(-k1 2 + k2 2 + q 2))))/(k1 2*q 1 - 2*k2 2*q 1 - q 3 + 2*k2 1*(Real.sqrt (q 2*(-k1 2 + k2 2 +
    q 2))))))))/(power (-k1 2 + k2 2 + q 2) 3*(power (-(k1 2*q 1) + q 3) 4)))/(6.20928e6*k1 9*k2 9*q 5)

/-- `kernel_gamma2d_coll` (`src/gamma2d_1loop.c:367-514`). -/
def g2dColl (k1 k2 k3 q : ℝ) : ℝ :=
  g2dColl0 (pw k1) (pw k2) (pw (k3/k2)) (pw q) + g2dColl1 (pw k1) (pw k2) (pw (k3/k2)) (pw q) + g2dColl2 (pw k1) (pw k2) (pw (k3/k2)) (pw q)

/-- `kernel_poly[0]` of `kernel_gamma2d_reg3rd` (`src/gamma2d_1loop.c:524-549`). -/
def g2dPoly0 (k1 k2 k3 q : ℕ → ℝ) : ℝ :=
  ((-210)*k1 11*k2 9*k3 8 - 210*k1 9*k2 11*k3 8 - 540*k1 9*k2 9*k3 10)*π - (1050*k1 11*k2 9*k3 7 + 1050*k1 9*k2 11*k3 7 + 840*k1 11*k2 8*k3 8 +
    840*k1 10*k2 9*k3 8 + 840*k1 9*k2 10*k3 8 + 840*k1 8*k2 11*k3 8 + 2700*k1 9*k2 9*k3 9 + 2160*k1 9*k2 8*k3 10 + 2160*k1 8*k2 9*k3 10)*π*q 1 -
    ((-140)*k1 13*k2 7*k3 6 + 3045*k1 11*k2 9*k3 6 + 3045*k1 9*k2 11*k3 6 - 140*k1 7*k2 13*k3 6 + 4200*k1 11*k2 8*k3 7 + 4200*k1 10*k2 9*k3 7 +
    4200*k1 9*k2 10*k3 7 + 4200*k1 8*k2 11*k3 7 - 22050*k1 11*k2 7*k3 8 + 3360*k1 10*k2 8*k3 8 + 54120*k1 9*k2 9*k3 8 + 3360*k1 8*k2 10*k3 8 -
    22050*k1 7*k2 11*k3 8 + 10800*k1 9*k2 8*k3 9 + 10800*k1 8*k2 9*k3 9 + 16560*k1 9*k2 7*k3 10 + 8640*k1 8*k2 8*k3 10 + 16560*k1 7*k2 9*k3 10 +
    8880*k1 7*k2 7*k3 12)*π*q 2

/-- `kernel_poly[1]` of `kernel_gamma2d_reg3rd` (`src/gamma2d_1loop.c:551-631`). -/
def g2dPoly1 (k1 k2 k3 q : ℕ → ℝ) : ℝ :=
  (-((-280)*k1 13*k2 7*k3 5 + 3045*k1 11*k2 9*k3 5 + 3045*k1 9*k2 11*k3 5 - 280*k1 7*k2 13*k3 5 - 15320*k1 13*k2 6*k3 6 - 1730*k1 12*k2 7*k3 6 +
    10650*k1 11*k2 8*k3 6 + 29640*k1 10*k2 9*k3 6 + 29640*k1 9*k2 10*k3 6 + 10650*k1 8*k2 11*k3 6 - 1730*k1 7*k2 12*k3 6 - 15320*k1 6*k2 13*k3 6 -
    103530*k1 11*k2 7*k3 7 + 16800*k1 10*k2 8*k3 7 + 235560*k1 9*k2 9*k3 7 + 16800*k1 8*k2 10*k3 7 - 103530*k1 7*k2 11*k3 7 - 73410*k1 11*k2 6*k3 8
    - 64470*k1 10*k2 7*k3 8 + 148680*k1 9*k2 8*k3 8 + 148680*k1 8*k2 9*k3 8 - 64470*k1 7*k2 10*k3 8 - 73410*k1 6*k2 11*k3 8 + 76500*k1 9*k2 7*k3 9 +
    43200*k1 8*k2 8*k3 9 + 76500*k1 7*k2 9*k3 9 + 43740*k1 9*k2 6*k3 10 + 48210*k1 8*k2 7*k3 10 + 48210*k1 7*k2 8*k3 10 + 43740*k1 6*k2 9*k3 10 +
    43560*k1 7*k2 7*k3 11 + 30990*k1 7*k2 6*k3 12 + 30990*k1 6*k2 7*k3 12))*π*q 3 - ((-1750)*k1 13*k2 7*k3 4 + 9520*k1 11*k2 9*k3 4 + 9520*k1 9*k2
    11*k3 4 - 1750*k1 7*k2 13*k3 4 - 74920*k1 13*k2 6*k3 5 - 6970*k1 12*k2 7*k3 5 + 4530*k1 11*k2 8*k3 5 + 99480*k1 10*k2 9*k3 5 + 99480*k1 9*k2
    10*k3 5 + 4530*k1 8*k2 11*k3 5 - 6970*k1 7*k2 12*k3 5 - 74920*k1 6*k2 13*k3 5 - 2160*k1 13*k2 5*k3 6 - 65960*k1 12*k2 6*k3 6 - 111003*k1 11*k2
    7*k3 6 + 112440*k1 10*k2 8*k3 6 + 292656*k1 9*k2 9*k3 6 + 112440*k1 8*k2 10*k3 6 - 111003*k1 7*k2 11*k3 6 - 65960*k1 6*k2 12*k3 6 - 2160*k1 5*k2
    13*k3 6 - 340170*k1 11*k2 6*k3 7 - 295470*k1 10*k2 7*k3 7 + 603240*k1 9*k2 8*k3 7 + 603240*k1 8*k2 9*k3 7 - 295470*k1 7*k2 10*k3 7 - 340170*k1
    6*k2 11*k3 7 - 131130*k1 11*k2 5*k3 8 - 198720*k1 10*k2 6*k3 8 + 288522*k1 9*k2 7*k3 8 + 323520*k1 8*k2 8*k3 8 + 288522*k1 7*k2 9*k3 8 -
    198720*k1 6*k2 10*k3 8 - 131130*k1 5*k2 11*k3 8 + 193500*k1 9*k2 6*k3 9 + 215850*k1 8*k2 7*k3 9 + 215850*k1 7*k2 8*k3 9 + 193500*k1 6*k2 9*k3 9
    + 81940*k1 9*k2 5*k3 10 + 102840*k1 8*k2 6*k3 10 + 294336*k1 7*k2 7*k3 10 + 102840*k1 6*k2 8*k3 10 + 81940*k1 5*k2 9*k3 10 + 151590*k1 7*k2 6*k3
    11 + 151590*k1 6*k2 7*k3 11 + 54600*k1 7*k2 5*k3 12 + 105840*k1 6*k2 6*k3 12 + 54600*k1 5*k2 7*k3 12)*π*q 4

/-- `kernel_poly[2]` of `kernel_gamma2d_reg3rd` (`src/gamma2d_1loop.c:633-776`). -/
def g2dPoly2 (k1 k2 k3 q : ℕ → ℝ) : ℝ :=
  (-((-980)*k1 13*k2 7*k3 3 - 8050*k1 11*k2 9*k3 3 - 8050*k1 9*k2 11*k3 3 - 980*k1 7*k2 13*k3 3 - 154600*k1 13*k2 6*k3 4 - 18700*k1 12*k2 7*k3 4 +
    22780*k1 11*k2 8*k3 4 + 212680*k1 10*k2 9*k3 4 + 212680*k1 9*k2 10*k3 4 + 22780*k1 8*k2 11*k3 4 - 18700*k1 7*k2 12*k3 4 - 154600*k1 6*k2 13*k3 4
    - 8280*k1 13*k2 5*k3 5 - 323080*k1 12*k2 6*k3 5 + 304585*k1 11*k2 7*k3 5 + 367320*k1 10*k2 8*k3 5 - 529280*k1 9*k2 9*k3 5 + 367320*k1 8*k2 10*k3
    5 + 304585*k1 7*k2 11*k3 5 - 323080*k1 6*k2 12*k3 5 - 8280*k1 5*k2 13*k3 5 - 75710*k1 13*k2 4*k3 6 - 15660*k1 12*k2 5*k3 6 - 213702*k1 11*k2
    6*k3 6 - 43862*k1 10*k2 7*k3 6 + 304374*k1 9*k2 8*k3 6 + 304374*k1 8*k2 9*k3 6 - 43862*k1 7*k2 10*k3 6 - 213702*k1 6*k2 11*k3 6 - 15660*k1 5*k2
    12*k3 6 - 75710*k1 4*k2 13*k3 6 - 615330*k1 11*k2 5*k3 7 - 886080*k1 10*k2 6*k3 7 + 739260*k1 9*k2 7*k3 7 + 1056960*k1 8*k2 8*k3 7 + 739260*k1
    7*k2 9*k3 7 - 886080*k1 6*k2 10*k3 7 - 615330*k1 5*k2 11*k3 7 + 41790*k1 11*k2 4*k3 8 - 382140*k1 10*k2 5*k3 8 - 99352*k1 9*k2 6*k3 8 +
    1042858*k1 8*k2 7*k3 8 + 1042858*k1 7*k2 8*k3 8 - 99352*k1 6*k2 9*k3 8 - 382140*k1 5*k2 10*k3 8 + 41790*k1 4*k2 11*k3 8 + 371900*k1 9*k2 5*k3 9
    + 413400*k1 8*k2 6*k3 9 + 1038220*k1 7*k2 7*k3 9 + 413400*k1 6*k2 8*k3 9 + 371900*k1 5*k2 9*k3 9 + 16270*k1 9*k2 4*k3 10 + 219580*k1 8*k2 5*k3
    10 + 677194*k1 7*k2 6*k3 10 + 677194*k1 6*k2 7*k3 10 + 219580*k1 5*k2 8*k3 10 + 16270*k1 4*k2 9*k3 10 + 267960*k1 7*k2 5*k3 11 + 515760*k1 6*k2
    6*k3 11 + 267960*k1 5*k2 7*k3 11 + 20650*k1 7*k2 4*k3 12 + 191220*k1 6*k2 5*k3 12 + 191220*k1 5*k2 6*k3 12 + 20650*k1 4*k2 7*k3 12))*π*q 5 -
    ((-3780)*k1 13*k2 7*k3 2 - 945*k1 11*k2 9*k3 2 - 945*k1 9*k2 11*k3 2 - 3780*k1 7*k2 13*k3 2 - 151520*k1 13*k2 6*k3 3 - 15620*k1 12*k2 7*k3 3 -
    47500*k1 11*k2 8*k3 3 + 142400*k1 10*k2 9*k3 3 + 142400*k1 9*k2 10*k3 3 - 47500*k1 8*k2 11*k3 3 - 15620*k1 7*k2 12*k3 3 - 151520*k1 6*k2 13*k3 3
    - 23700*k1 13*k2 5*k3 4 - 665200*k1 12*k2 6*k3 4 + 946640*k1 11*k2 7*k3 4 + 789520*k1 10*k2 8*k3 4 - 1678160*k1 9*k2 9*k3 4 + 789520*k1 8*k2
    10*k3 4 + 946640*k1 7*k2 11*k3 4 - 665200*k1 6*k2 12*k3 4 - 23700*k1 5*k2 13*k3 4 - 376870*k1 13*k2 4*k3 5 - 68220*k1 12*k2 5*k3 5 + 1853890*k1
    11*k2 6*k3 5 + 2261490*k1 10*k2 7*k3 5 - 3660770*k1 9*k2 8*k3 5 - 3660770*k1 8*k2 9*k3 5 + 2261490*k1 7*k2 10*k3 5 + 1853890*k1 6*k2 11*k3 5 -
    68220*k1 5*k2 12*k3 5 - 376870*k1 4*k2 13*k3 5 - 44780*k1 13*k2 3*k3 6 - 307520*k1 12*k2 4*k3 6 - 904953*k1 11*k2 5*k3 6 + 691792*k1 10*k2 6*k3
    6 + 983773*k1 9*k2 7*k3 6 - 2186304*k1 8*k2 8*k3 6 + 983773*k1 7*k2 9*k3 6 + 691792*k1 6*k2 10*k3 6 - 904953*k1 5*k2 11*k3 6 - 307520*k1 4*k2
    12*k3 6 - 44780*k1 3*k2 13*k3 6 + 235830*k1 11*k2 4*k3 7 - 1749420*k1 10*k2 5*k3 7 - 2141360*k1 9*k2 6*k3 7 + 2987690*k1 8*k2 7*k3 7 +
    2987690*k1 7*k2 8*k3 7 - 2141360*k1 6*k2 9*k3 7 - 1749420*k1 5*k2 10*k3 7 + 235830*k1 4*k2 11*k3 7 + 59730*k1 11*k2 3*k3 8 + 262080*k1 10*k2
    4*k3 8 - 314308*k1 9*k2 5*k3 8 + 133872*k1 8*k2 6*k3 8 + 3788204*k1 7*k2 7*k3 8 + 133872*k1 6*k2 8*k3 8 - 314308*k1 5*k2 9*k3 8 + 262080*k1 4*k2
    10*k3 8 + 59730*k1 3*k2 11*k3 8 + 56150*k1 9*k2 4*k3 9 + 946700*k1 8*k2 5*k3 9 + 1959330*k1 7*k2 6*k3 9 + 1959330*k1 6*k2 7*k3 9 + 946700*k1
    5*k2 8*k3 9 + 56150*k1 4*k2 9*k3 9 - 16280*k1 9*k2 3*k3 10 - 7040*k1 8*k2 4*k3 10 + 1125136*k1 7*k2 5*k3 10 + 1392176*k1 6*k2 6*k3 10 +
    1125136*k1 5*k2 7*k3 10 - 7040*k1 4*k2 8*k3 10 - 16280*k1 3*k2 9*k3 10 + 99890*k1 7*k2 4*k3 11 + 935940*k1 6*k2 5*k3 11 + 935940*k1 5*k2 6*k3 11
    + 99890*k1 4*k2 7*k3 11 + 2080*k1 7*k2 3*k3 12 + 64480*k1 6*k2 4*k3 12 + 335520*k1 5*k2 5*k3 12 + 64480*k1 4*k2 6*k3 12 + 2080*k1 3*k2 7*k3
    12)*π*q 6

/-- `kernel_poly[3]` of `kernel_gamma2d_reg3rd` (`src/gamma2d_1loop.c:778-874`). -/
def g2dPoly3 (k1 k2 k3 q : ℕ → ℝ) : ℝ :=
  (-(1260*k1 13*k2 7*k3 1 - 2205*k1 11*k2 9*k3 1 - 2205*k1 9*k2 11*k3 1 + 1260*k1 7*k2 13*k3 1 - 88920*k1 13*k2 6*k3 2 - 20970*k1 12*k2 7*k3 2 -
    11430*k1 11*k2 8*k3 2 + 83520*k1 10*k2 9*k3 2 + 83520*k1 9*k2 10*k3 2 - 11430*k1 8*k2 11*k3 2 - 20970*k1 7*k2 12*k3 2 - 88920*k1 6*k2 13*k3 2 -
    19080*k1 13*k2 5*k3 3 - 652880*k1 12*k2 6*k3 3 + 788440*k1 11*k2 7*k3 3 + 508400*k1 10*k2 8*k3 3 - 1728280*k1 9*k2 9*k3 3 + 508400*k1 8*k2 10*k3
    3 + 788440*k1 7*k2 11*k3 3 - 652880*k1 6*k2 12*k3 3 - 19080*k1 5*k2 13*k3 3 - 758500*k1 13*k2 4*k3 4 - 165000*k1 12*k2 5*k3 4 + 4704210*k1 11*k2
    6*k3 4 + 5540710*k1 10*k2 7*k3 4 - 8914540*k1 9*k2 8*k3 4 - 8914540*k1 8*k2 9*k3 4 + 5540710*k1 7*k2 10*k3 4 + 4704210*k1 6*k2 11*k3 4 -
    165000*k1 5*k2 12*k3 4 - 758500*k1 4*k2 13*k3 4 - 223480*k1 13*k2 3*k3 5 - 1530880*k1 12*k2 4*k3 5 + 718335*k1 11*k2 5*k3 5 + 11318160*k1 10*k2
    6*k3 5 - 440535*k1 9*k2 7*k3 5 - 20511680*k1 8*k2 8*k3 5 - 440535*k1 7*k2 9*k3 5 + 11318160*k1 6*k2 10*k3 5 + 718335*k1 5*k2 11*k3 5 -
    1530880*k1 4*k2 12*k3 5 - 223480*k1 3*k2 13*k3 5 + 52860*k1 13*k2 2*k3 6 - 180290*k1 12*k2 3*k3 6 - 132642*k1 11*k2 4*k3 6 - 1803612*k1 10*k2
    5*k3 6 - 1894968*k1 9*k2 6*k3 6 + 1490722*k1 8*k2 7*k3 6 + 1490722*k1 7*k2 8*k3 6 - 1894968*k1 6*k2 9*k3 6 - 1803612*k1 5*k2 10*k3 6 - 132642*k1
    4*k2 11*k3 6 - 180290*k1 3*k2 12*k3 6 + 52860*k1 2*k2 13*k3 6 + 305370*k1 11*k2 3*k3 7 + 1417920*k1 10*k2 4*k3 7 - 4624440*k1 9*k2 5*k3 7 -
    3561840*k1 8*k2 6*k3 7 + 10024860*k1 7*k2 7*k3 7 - 3561840*k1 6*k2 8*k3 7 - 4624440*k1 5*k2 9*k3 7 + 1417920*k1 4*k2 10*k3 7 + 305370*k1 3*k2
    11*k3 7 - 100710*k1 11*k2 2*k3 8 + 262650*k1 10*k2 3*k3 8 + 372928*k1 9*k2 4*k3 8 + 277988*k1 8*k2 5*k3 8 + 3941126*k1 7*k2 6*k3 8 + 3941126*k1
    6*k2 7*k3 8 + 277988*k1 5*k2 8*k3 8 + 372928*k1 4*k2 9*k3 8 + 262650*k1 3*k2 10*k3 8 - 100710*k1 2*k2 11*k3 8 - 87700*k1 9*k2 3*k3 9 - 136000*k1
    8*k2 4*k3 9 + 3192620*k1 7*k2 5*k3 9 + 2483120*k1 6*k2 6*k3 9 + 3192620*k1 5*k2 7*k3 9 - 136000*k1 4*k2 8*k3 9 - 87700*k1 3*k2 9*k3 9 + 42840*k1
    9*k2 2*k3 10 - 83150*k1 8*k2 3*k3 10 + 359494*k1 7*k2 4*k3 10 + 2257544*k1 6*k2 5*k3 10 + 2257544*k1 5*k2 6*k3 10 + 359494*k1 4*k2 7*k3 10 -
    83150*k1 3*k2 8*k3 10 + 42840*k1 2*k2 9*k3 10 + 9560*k1 7*k2 3*k3 11 + 308960*k1 6*k2 4*k3 11 + 1647360*k1 5*k2 5*k3 11 + 308960*k1 4*k2 6*k3 11
    + 9560*k1 3*k2 7*k3 11 + 5010*k1 7*k2 2*k3 12 + 3790*k1 6*k2 3*k3 12 + 129180*k1 5*k2 4*k3 12 + 129180*k1 4*k2 5*k3 12 + 3790*k1 3*k2 6*k3 12 +
    5010*k1 2*k2 7*k3 12))*π*q 7

/-- `kernel_poly[4]` of `kernel_gamma2d_reg3rd` (`src/gamma2d_1loop.c:876-986`). -/
def g2dPoly4 (k1 k2 k3 q : ℕ → ℝ) : ℝ :=
  (-(5670*k1 13*k2 7 - 5670*k1 11*k2 9 - 5670*k1 9*k2 11 + 5670*k1 7*k2 13 - 9720*k1 13*k2 6*k3 1 + 3870*k1 12*k2 7*k3 1 - 10350*k1 11*k2 8*k3 1 +
    8640*k1 10*k2 9*k3 1 + 8640*k1 9*k2 10*k3 1 - 10350*k1 8*k2 11*k3 1 + 3870*k1 7*k2 12*k3 1 - 9720*k1 6*k2 13*k3 1 - 29280*k1 13*k2 5*k3 2 -
    379080*k1 12*k2 6*k3 2 + 314805*k1 11*k2 7*k3 2 + 303480*k1 10*k2 8*k3 2 - 683820*k1 9*k2 9*k3 2 + 303480*k1 8*k2 10*k3 2 + 314805*k1 7*k2 11*k3
    2 - 379080*k1 6*k2 12*k3 2 - 29280*k1 5*k2 13*k3 2 - 755420*k1 13*k2 4*k3 3 - 146520*k1 12*k2 5*k3 3 + 4346850*k1 11*k2 6*k3 3 + 4797590*k1
    10*k2 7*k3 3 - 8509220*k1 9*k2 8*k3 3 - 8509220*k1 8*k2 9*k3 3 + 4797590*k1 7*k2 10*k3 3 + 4346850*k1 6*k2 11*k3 3 - 146520*k1 5*k2 12*k3 3 -
    755420*k1 4*k2 13*k3 3 - 448150*k1 13*k2 3*k3 4 - 3080800*k1 12*k2 4*k3 4 + 3213640*k1 11*k2 5*k3 4 + 25293440*k1 10*k2 6*k3 4 - 2619000*k1 9*k2
    7*k3 4 - 43853760*k1 8*k2 8*k3 4 - 2619000*k1 7*k2 9*k3 4 + 25293440*k1 6*k2 10*k3 4 + 3213640*k1 5*k2 11*k3 4 - 3080800*k1 4*k2 12*k3 4 -
    448150*k1 3*k2 13*k3 4 + 264300*k1 13*k2 2*k3 5 - 899770*k1 12*k2 3*k3 5 - 2333690*k1 11*k2 4*k3 5 + 6208740*k1 10*k2 5*k3 5 + 10942680*k1 9*k2
    6*k3 5 - 15817350*k1 8*k2 7*k3 5 - 15817350*k1 7*k2 8*k3 5 + 10942680*k1 6*k2 9*k3 5 + 6208740*k1 5*k2 10*k3 5 - 2333690*k1 4*k2 11*k3 5 -
    899770*k1 3*k2 12*k3 5 + 264300*k1 2*k2 13*k3 5 + 3960*k1 13*k2 1*k3 6 + 211440*k1 12*k2 2*k3 6 + 341967*k1 11*k2 3*k3 6 + 2153992*k1 10*k2 4*k3
    6 - 8735142*k1 9*k2 5*k3 6 - 7746192*k1 8*k2 6*k3 6 + 14450810*k1 7*k2 7*k3 6 - 7746192*k1 6*k2 8*k3 6 - 8735142*k1 5*k2 9*k3 6 + 2153992*k1
    4*k2 10*k3 6 + 341967*k1 3*k2 11*k3 6 + 211440*k1 2*k2 12*k3 6 + 3960*k1 1*k2 13*k3 6 - 503550*k1 11*k2 2*k3 7 + 1340130*k1 10*k2 3*k3 7 +
    1372600*k1 9*k2 4*k3 7 - 7300860*k1 8*k2 5*k3 7 + 3942230*k1 7*k2 6*k3 7 + 3942230*k1 6*k2 7*k3 7 - 7300860*k1 5*k2 8*k3 7 + 1372600*k1 4*k2
    9*k3 7 + 1340130*k1 3*k2 10*k3 7 - 503550*k1 2*k2 11*k3 7 - 11880*k1 11*k2 1*k3 8 - 402840*k1 10*k2 2*k3 8 + 178912*k1 9*k2 3*k3 8 - 26608*k1
    8*k2 4*k3 8 + 4885714*k1 7*k2 5*k3 8 + 3813024*k1 6*k2 6*k3 8 + 4885714*k1 5*k2 7*k3 8 - 26608*k1 4*k2 8*k3 8 + 178912*k1 3*k2 9*k3 8 -
    402840*k1 2*k2 10*k3 8 - 11880*k1 1*k2 11*k3 8 + 214200*k1 9*k2 2*k3 9 - 440950*k1 8*k2 3*k3 9 + 809630*k1 7*k2 4*k3 9 + 3398680*k1 6*k2 5*k3 9
    + 3398680*k1 5*k2 6*k3 9 + 809630*k1 4*k2 7*k3 9 - 440950*k1 3*k2 8*k3 9 + 214200*k1 2*k2 9*k3 9 + 11880*k1 9*k2 1*k3 10 + 171360*k1 8*k2 2*k3
    10 - 74624*k1 7*k2 3*k3 10 + 717576*k1 6*k2 4*k3 10 + 3463436*k1 5*k2 5*k3 10 + 717576*k1 4*k2 6*k3 10 - 74624*k1 3*k2 7*k3 10 + 171360*k1 2*k2
    8*k3 10 + 11880*k1 1*k2 9*k3 10 + 25050*k1 7*k2 2*k3 11 + 15590*k1 6*k2 3*k3 11 + 625740*k1 5*k2 4*k3 11 + 625740*k1 4*k2 5*k3 11 + 15590*k1
    3*k2 6*k3 11 + 25050*k1 2*k2 7*k3 11 - 3960*k1 7*k2 1*k3 12 + 20040*k1 6*k2 2*k3 12 + 13800*k1 5*k2 3*k3 12 + 23120*k1 4*k2 4*k3 12 + 13800*k1
    3*k2 5*k3 12 + 20040*k1 2*k2 6*k3 12 - 3960*k1 1*k2 7*k3 12))*π*q 8

/-- `kernel_poly[5]` of `kernel_gamma2d_reg3rd` (`src/gamma2d_1loop.c:988-1103`). -/
def g2dPoly5 (k1 k2 k3 q : ℕ → ℝ) : ℝ :=
  (-(22680*k1 13*k2 6 + 22680*k1 12*k2 7 - 22680*k1 11*k2 8 - 22680*k1 10*k2 9 - 22680*k1 9*k2 10 - 22680*k1 8*k2 11 + 22680*k1 7*k2 12 + 22680*k1
    6*k2 13 + 6240*k1 13*k2 5*k3 1 - 43560*k1 12*k2 6*k3 1 + 87657*k1 11*k2 7*k3 1 + 28440*k1 10*k2 8*k3 1 - 207324*k1 9*k2 9*k3 1 + 28440*k1 8*k2
    10*k3 1 + 87657*k1 7*k2 11*k3 1 - 43560*k1 6*k2 12*k3 1 + 6240*k1 5*k2 13*k3 1 - 390870*k1 13*k2 4*k3 2 - 152220*k1 12*k2 5*k3 2 + 1784670*k1
    11*k2 6*k3 2 + 2135070*k1 10*k2 7*k3 2 - 3563130*k1 9*k2 8*k3 2 - 3563130*k1 8*k2 9*k3 2 + 2135070*k1 7*k2 10*k3 2 + 1784670*k1 6*k2 11*k3 2 -
    152220*k1 5*k2 12*k3 2 - 390870*k1 4*k2 13*k3 2 - 447380*k1 13*k2 3*k3 3 - 3068480*k1 12*k2 4*k3 3 + 2845310*k1 11*k2 5*k3 3 + 23422720*k1 10*k2
    6*k3 3 - 2707278*k1 9*k2 7*k3 3 - 39809280*k1 8*k2 8*k3 3 - 2707278*k1 7*k2 9*k3 3 + 23422720*k1 6*k2 10*k3 3 + 2845310*k1 5*k2 11*k3 3 -
    3068480*k1 4*k2 12*k3 3 - 447380*k1 3*k2 13*k3 3 + 528600*k1 13*k2 2*k3 4 - 1804300*k1 12*k2 3*k3 4 - 5425270*k1 11*k2 4*k3 4 + 17532460*k1
    10*k2 5*k3 4 + 28922920*k1 9*k2 6*k3 4 - 39858850*k1 8*k2 7*k3 4 - 39858850*k1 7*k2 8*k3 4 + 28922920*k1 6*k2 9*k3 4 + 17532460*k1 5*k2 10*k3 4
    - 5425270*k1 4*k2 11*k3 4 - 1804300*k1 3*k2 12*k3 4 + 528600*k1 2*k2 13*k3 4 + 19800*k1 13*k2 1*k3 5 + 1057200*k1 12*k2 2*k3 5 - 679085*k1 11*k2
    3*k3 5 + 257640*k1 10*k2 4*k3 5 - 257550*k1 9*k2 5*k3 5 - 4954320*k1 8*k2 6*k3 5 + 539566*k1 7*k2 7*k3 5 - 4954320*k1 6*k2 8*k3 5 - 257550*k1
    5*k2 9*k3 5 + 257640*k1 4*k2 10*k3 5 - 679085*k1 3*k2 11*k3 5 + 1057200*k1 2*k2 12*k3 5 + 19800*k1 1*k2 13*k3 5 - 4950*k1 13*k3 6 + 15840*k1
    12*k2 1*k3 6 - 664290*k1 11*k2 2*k3 6 + 2556058*k1 10*k2 3*k3 6 + 1376058*k1 9*k2 4*k3 6 - 17106078*k1 8*k2 5*k3 6 + 3816522*k1 7*k2 6*k3 6 +
    3816522*k1 6*k2 7*k3 6 - 17106078*k1 5*k2 8*k3 6 + 1376058*k1 4*k2 9*k3 6 + 2556058*k1 3*k2 10*k3 6 - 664290*k1 2*k2 11*k3 6 + 15840*k1 1*k2
    12*k3 6 - 4950*k2 13*k3 6 - 59400*k1 11*k2 1*k3 7 - 2014200*k1 10*k2 2*k3 7 + 1585450*k1 9*k2 3*k3 7 + 246000*k1 8*k2 4*k3 7 - 132740*k1 7*k2
    5*k3 7 + 2880480*k1 6*k2 6*k3 7 - 132740*k1 5*k2 7*k3 7 + 246000*k1 4*k2 8*k3 7 + 1585450*k1 3*k2 9*k3 7 - 2014200*k1 2*k2 10*k3 7 - 59400*k1
    1*k2 11*k3 7 + 14850*k1 11*k3 8 - 47520*k1 10*k2 1*k3 8 - 215280*k1 9*k2 2*k3 8 - 649582*k1 8*k2 3*k3 8 + 2094318*k1 7*k2 4*k3 8 + 4030196*k1
    6*k2 5*k3 8 + 4030196*k1 5*k2 6*k3 8 + 2094318*k1 4*k2 7*k3 8 - 649582*k1 3*k2 8*k3 8 - 215280*k1 2*k2 9*k3 8 - 47520*k1 1*k2 10*k3 8 + 14850*k2
    11*k3 8 + 59400*k1 9*k2 1*k3 9 + 856800*k1 8*k2 2*k3 9 - 496780*k1 7*k2 3*k3 9 + 865320*k1 6*k2 4*k3 9 + 3725020*k1 5*k2 5*k3 9 + 865320*k1 4*k2
    6*k3 9 - 496780*k1 3*k2 7*k3 9 + 856800*k1 2*k2 8*k3 9 + 59400*k1 1*k2 9*k3 9 - 14850*k1 9*k3 10 + 47520*k1 8*k2 1*k3 10 + 320910*k1 7*k2 2*k3
    10 - 71646*k1 6*k2 3*k3 10 + 1306874*k1 5*k2 4*k3 10 + 1306874*k1 4*k2 5*k3 10 - 71646*k1 3*k2 6*k3 10 + 320910*k1 2*k2 7*k3 10 + 47520*k1 1*k2
    8*k3 10 - 14850*k2 9*k3 10 - 19800*k1 7*k2 1*k3 11 + 100200*k1 6*k2 2*k3 11 + 63960*k1 5*k2 3*k3 11 + 102160*k1 4*k2 4*k3 11 + 63960*k1 3*k2
    5*k3 11 + 100200*k1 2*k2 6*k3 11 - 19800*k1 1*k2 7*k3 11 + 4950*k1 7*k3 12 - 15840*k1 6*k2 1*k3 12 + 30060*k1 5*k2 2*k3 12 - 6550*k1 4*k2 3*k3
    12 - 6550*k1 3*k2 4*k3 12 + 30060*k1 2*k2 5*k3 12 - 15840*k1 1*k2 6*k3 12 + 4950*k2 7*k3 12))*π*q 9

/-- `kernel_poly[6]` of `kernel_gamma2d_reg3rd` (`src/gamma2d_1loop.c:1105-1218`). -/
def g2dPoly6 (k1 k2 k3 q : ℕ → ℝ) : ℝ :=
  (-(34020*k1 13*k2 5 + 90720*k1 12*k2 6 + 22680*k1 11*k2 7 - 90720*k1 10*k2 8 - 113400*k1 9*k2 9 - 90720*k1 8*k2 10 + 22680*k1 7*k2 11 + 90720*k1
    6*k2 12 + 34020*k1 5*k2 13 - 70110*k1 13*k2 4*k3 1 + 17940*k1 12*k2 5*k3 1 + 496038*k1 11*k2 6*k3 1 + 485478*k1 10*k2 7*k3 1 - 954546*k1 9*k2
    8*k3 1 - 954546*k1 8*k2 9*k3 1 + 485478*k1 7*k2 10*k3 1 + 496038*k1 6*k2 11*k3 1 + 17940*k1 5*k2 12*k3 1 - 70110*k1 4*k2 13*k3 1 - 226980*k1
    13*k2 3*k3 2 - 1586880*k1 12*k2 4*k3 2 + 834105*k1 11*k2 5*k3 2 + 10372080*k1 10*k2 6*k3 2 - 861015*k1 9*k2 7*k3 2 - 17257920*k1 8*k2 8*k3 2 -
    861015*k1 7*k2 9*k3 2 + 10372080*k1 6*k2 10*k3 2 + 834105*k1 5*k2 11*k3 2 - 1586880*k1 4*k2 12*k3 2 - 226980*k1 3*k2 13*k3 2 + 528600*k1 13*k2
    2*k3 3 - 1801220*k1 12*k2 3*k3 3 - 6176510*k1 11*k2 4*k3 3 + 15397220*k1 10*k2 5*k3 3 + 27847688*k1 9*k2 6*k3 3 - 35470922*k1 8*k2 7*k3 3 -
    35470922*k1 7*k2 8*k3 3 + 27847688*k1 6*k2 9*k3 3 + 15397220*k1 5*k2 10*k3 3 - 6176510*k1 4*k2 11*k3 3 - 1801220*k1 3*k2 12*k3 3 + 528600*k1
    2*k2 13*k3 3 + 39600*k1 13*k2 1*k3 4 + 2114400*k1 12*k2 2*k3 4 - 2286880*k1 11*k2 3*k3 4 - 3844880*k1 10*k2 4*k3 4 + 14573280*k1 9*k2 5*k3 4 +
    1140880*k1 8*k2 6*k3 4 - 25204600*k1 7*k2 7*k3 4 + 1140880*k1 6*k2 8*k3 4 + 14573280*k1 5*k2 9*k3 4 - 3844880*k1 4*k2 10*k3 4 - 2286880*k1 3*k2
    11*k3 4 + 2114400*k1 2*k2 12*k3 4 + 39600*k1 1*k2 13*k3 4 - 24750*k1 13*k3 5 + 79200*k1 12*k2 1*k3 5 + 706950*k1 11*k2 2*k3 5 + 2267010*k1 10*k2
    3*k3 5 - 1889630*k1 9*k2 4*k3 5 - 13607910*k1 8*k2 5*k3 5 + 6781954*k1 7*k2 6*k3 5 + 6781954*k1 6*k2 7*k3 5 - 13607910*k1 5*k2 8*k3 5 -
    1889630*k1 4*k2 9*k3 5 + 2267010*k1 3*k2 10*k3 5 + 706950*k1 2*k2 11*k3 5 + 79200*k1 1*k2 12*k3 5 - 24750*k2 13*k3 5 - 19800*k1 12*k3 6 -
    95040*k1 11*k2 1*k3 6 - 3714360*k1 10*k2 2*k3 6 + 3336012*k1 9*k2 3*k3 6 - 103848*k1 8*k2 4*k3 6 - 8005147*k1 7*k2 5*k3 6 + 2975456*k1 6*k2 6*k3
    6 - 8005147*k1 5*k2 7*k3 6 - 103848*k1 4*k2 8*k3 6 + 3336012*k1 3*k2 9*k3 6 - 3714360*k1 2*k2 10*k3 6 - 95040*k1 1*k2 11*k3 6 - 19800*k2 12*k3 6
    + 74250*k1 11*k3 7 - 237600*k1 10*k2 1*k3 7 - 2790000*k1 9*k2 2*k3 7 + 102450*k1 8*k2 3*k3 7 + 3853430*k1 7*k2 4*k3 7 + 1589180*k1 6*k2 5*k3 7 +
    1589180*k1 5*k2 6*k3 7 + 3853430*k1 4*k2 7*k3 7 + 102450*k1 3*k2 8*k3 7 - 2790000*k1 2*k2 9*k3 7 - 237600*k1 1*k2 10*k3 7 + 74250*k2 11*k3 7 +
    59400*k1 10*k3 8 + 47520*k1 9*k2 1*k3 8 + 1153080*k1 8*k2 2*k3 8 - 815478*k1 7*k2 3*k3 8 + 1580752*k1 6*k2 4*k3 8 + 2613184*k1 5*k2 5*k3 8 +
    1580752*k1 4*k2 6*k3 8 - 815478*k1 3*k2 7*k3 8 + 1153080*k1 2*k2 8*k3 8 + 47520*k1 1*k2 9*k3 8 + 59400*k2 10*k3 8 - 74250*k1 9*k3 9 + 237600*k1
    8*k2 1*k3 9 + 1404150*k1 7*k2 2*k3 9 - 545670*k1 6*k2 3*k3 9 + 1278130*k1 5*k2 4*k3 9 + 1278130*k1 4*k2 5*k3 9 - 545670*k1 3*k2 6*k3 9 +
    1404150*k1 2*k2 7*k3 9 + 237600*k1 1*k2 8*k3 9 - 74250*k2 9*k3 9 - 59400*k1 8*k3 10 + 31680*k1 7*k2 1*k3 10 + 426840*k1 6*k2 2*k3 10 + 51896*k1
    5*k2 3*k3 10 + 254096*k1 4*k2 4*k3 10 + 51896*k1 3*k2 5*k3 10 + 426840*k1 2*k2 6*k3 10 + 31680*k1 1*k2 7*k3 10 - 59400*k2 8*k3 10 + 24750*k1
    7*k3 11 - 79200*k1 6*k2 1*k3 11 + 150300*k1 5*k2 2*k3 11 - 36110*k1 4*k2 3*k3 11 - 36110*k1 3*k2 4*k3 11 + 150300*k1 2*k2 5*k3 11 - 79200*k1
    1*k2 6*k3 11 + 24750*k2 7*k3 11 + 19800*k1 6*k3 12 - 23760*k1 5*k2 1*k3 12 + 20040*k1 4*k2 2*k3 12 - 4720*k1 3*k2 3*k3 12 + 20040*k1 2*k2 4*k3
    12 - 23760*k1 1*k2 5*k3 12 + 19800*k2 6*k3 12))*π*q 10

/-- `kernel_poly[7]` of `kernel_gamma2d_reg3rd` (`src/gamma2d_1loop.c:1220-1326`). -/
def g2dPoly7 (k1 k2 k3 q : ℕ → ℝ) : ℝ :=
  (-(22680*k1 13*k2 4 + 136080*k1 12*k2 5 + 204120*k1 11*k2 6 - 22680*k1 10*k2 7 - 340200*k1 9*k2 8 - 340200*k1 8*k2 9 - 22680*k1 7*k2 10 +
    204120*k1 6*k2 11 + 136080*k1 5*k2 12 + 22680*k1 4*k2 13 - 43380*k1 13*k2 3*k3 1 - 285120*k1 12*k2 4*k3 1 + 385557*k1 11*k2 5*k3 1 + 2469552*k1
    10*k2 6*k3 1 - 371787*k1 9*k2 7*k3 1 - 4257984*k1 8*k2 8*k3 1 - 371787*k1 7*k2 9*k3 1 + 2469552*k1 6*k2 10*k3 1 + 385557*k1 5*k2 11*k3 1 -
    285120*k1 4*k2 12*k3 1 - 43380*k1 3*k2 13*k3 1 + 264300*k1 13*k2 2*k3 2 - 913770*k1 12*k2 3*k3 2 - 3547350*k1 11*k2 4*k3 2 + 5668020*k1 10*k2
    5*k3 2 + 12684420*k1 9*k2 6*k3 2 - 14372340*k1 8*k2 7*k3 2 - 14372340*k1 7*k2 8*k3 2 + 12684420*k1 6*k2 9*k3 2 + 5668020*k1 5*k2 10*k3 2 -
    3547350*k1 4*k2 11*k3 2 - 913770*k1 3*k2 12*k3 2 + 264300*k1 2*k2 13*k3 2 + 39600*k1 13*k2 1*k3 3 + 2114400*k1 12*k2 2*k3 3 - 2671820*k1 11*k2
    3*k3 3 - 7291120*k1 10*k2 4*k3 3 + 13049052*k1 9*k2 5*k3 3 + 5207312*k1 8*k2 6*k3 3 - 21778976*k1 7*k2 7*k3 3 + 5207312*k1 6*k2 8*k3 3 +
    13049052*k1 5*k2 9*k3 3 - 7291120*k1 4*k2 10*k3 3 - 2671820*k1 3*k2 11*k3 3 + 2114400*k1 2*k2 12*k3 3 + 39600*k1 1*k2 13*k3 3 - 49500*k1 13*k3 4
    + 158400*k1 12*k2 1*k3 4 + 2924550*k1 11*k2 2*k3 4 + 487030*k1 10*k2 3*k3 4 - 8182660*k1 9*k2 4*k3 4 - 2929880*k1 8*k2 5*k3 4 + 7750340*k1 7*k2
    6*k3 4 + 7750340*k1 6*k2 7*k3 4 - 2929880*k1 5*k2 8*k3 4 - 8182660*k1 4*k2 9*k3 4 + 487030*k1 3*k2 10*k3 4 + 2924550*k1 2*k2 11*k3 4 + 158400*k1
    1*k2 12*k3 4 - 49500*k2 13*k3 4 - 99000*k1 12*k3 5 - 2458200*k1 10*k2 2*k3 5 + 3409720*k1 9*k2 3*k3 5 - 1810760*k1 8*k2 4*k3 5 - 5733499*k1 7*k2
    5*k3 5 + 10495776*k1 6*k2 6*k3 5 - 5733499*k1 5*k2 7*k3 5 - 1810760*k1 4*k2 8*k3 5 + 3409720*k1 3*k2 9*k3 5 - 2458200*k1 2*k2 10*k3 5 - 99000*k2
    12*k3 5 + 118800*k1 11*k3 6 - 459360*k1 10*k2 1*k3 6 - 6015840*k1 9*k2 2*k3 6 + 1440588*k1 8*k2 3*k3 6 + 5736868*k1 7*k2 4*k3 6 - 1497356*k1
    6*k2 5*k3 6 - 1497356*k1 5*k2 6*k3 6 + 5736868*k1 4*k2 7*k3 6 + 1440588*k1 3*k2 8*k3 6 - 6015840*k1 2*k2 9*k3 6 - 459360*k1 1*k2 10*k3 6 +
    118800*k2 11*k3 6 + 297000*k1 10*k3 7 - 237600*k1 9*k2 1*k3 7 - 1089000*k1 8*k2 2*k3 7 - 311050*k1 7*k2 3*k3 7 + 3376880*k1 6*k2 4*k3 7 +
    531960*k1 5*k2 5*k3 7 + 3376880*k1 4*k2 6*k3 7 - 311050*k1 3*k2 7*k3 7 - 1089000*k1 2*k2 8*k3 7 - 237600*k1 1*k2 9*k3 7 + 297000*k2 10*k3 7 -
    59400*k1 9*k3 8 + 427680*k1 8*k2 1*k3 8 + 2395920*k1 7*k2 2*k3 8 - 957872*k1 6*k2 3*k3 8 + 901148*k1 5*k2 4*k3 8 + 901148*k1 4*k2 5*k3 8 -
    957872*k1 3*k2 6*k3 8 + 2395920*k1 2*k2 7*k3 8 + 427680*k1 1*k2 8*k3 8 - 59400*k2 9*k3 8 - 297000*k1 8*k3 9 + 316800*k1 7*k2 1*k3 9 + 1332600*k1
    6*k2 2*k3 9 - 314780*k1 5*k2 3*k3 9 + 303120*k1 4*k2 4*k3 9 - 314780*k1 3*k2 5*k3 9 + 1332600*k1 2*k2 6*k3 9 + 316800*k1 1*k2 7*k3 9 - 297000*k2
    8*k3 9 - 39600*k1 7*k3 10 - 110880*k1 6*k2 1*k3 10 + 426060*k1 5*k2 2*k3 10 - 106126*k1 4*k2 3*k3 10 - 106126*k1 3*k2 4*k3 10 + 426060*k1 2*k2
    5*k3 10 - 110880*k1 1*k2 6*k3 10 - 39600*k2 7*k3 10 + 99000*k1 6*k3 11 - 118800*k1 5*k2 1*k3 11 + 100200*k1 4*k2 2*k3 11 - 24440*k1 3*k2 3*k3 11
    + 100200*k1 2*k2 4*k3 11 - 118800*k1 1*k2 5*k3 11 + 99000*k2 6*k3 11 + 29700*k1 5*k3 12 - 15840*k1 4*k2 1*k3 12 + 5010*k1 3*k2 2*k3 12 + 5010*k1
    2*k2 3*k3 12 - 15840*k1 1*k2 4*k3 12 + 29700*k2 5*k3 12))*π*q 11

/-- `kernel_poly[8]` of `kernel_gamma2d_reg3rd` (`src/gamma2d_1loop.c:1328-1426`). -/
def g2dPoly8 (k1 k2 k3 q : ℕ → ℝ) : ℝ :=
  (-(5670*k1 13*k2 3 + 90720*k1 12*k2 4 + 334530*k1 11*k2 5 + 362880*k1 10*k2 6 - 340200*k1 9*k2 7 - 907200*k1 8*k2 8 - 340200*k1 7*k2 9 + 362880*k1
    6*k2 10 + 334530*k1 5*k2 11 + 90720*k1 4*k2 12 + 5670*k1 3*k2 13 + 52860*k1 13*k2 2*k3 1 - 174690*k1 12*k2 3*k3 1 - 562302*k1 11*k2 4*k3 1 +
    1766628*k1 10*k2 5*k3 1 + 2915892*k1 9*k2 6*k3 1 - 3932868*k1 8*k2 7*k3 1 - 3932868*k1 7*k2 8*k3 1 + 2915892*k1 6*k2 9*k3 1 + 1766628*k1 5*k2
    10*k3 1 - 562302*k1 4*k2 11*k3 1 - 174690*k1 3*k2 12*k3 1 + 52860*k1 2*k2 13*k3 1 + 19800*k1 13*k2 1*k3 2 + 1057200*k1 12*k2 2*k3 2 - 1475325*k1
    11*k2 3*k3 2 - 5266200*k1 10*k2 4*k3 2 + 3901830*k1 9*k2 5*k3 2 + 4002360*k1 8*k2 6*k3 2 - 6126150*k1 7*k2 7*k3 2 + 4002360*k1 6*k2 8*k3 2 +
    3901830*k1 5*k2 9*k3 2 - 5266200*k1 4*k2 10*k3 2 - 1475325*k1 3*k2 11*k3 2 + 1057200*k1 2*k2 12*k3 2 + 19800*k1 1*k2 13*k3 2 - 49500*k1 13*k3 3
    + 158400*k1 12*k2 1*k3 3 + 3327390*k1 11*k2 2*k3 3 - 1163050*k1 10*k2 3*k3 3 - 13226372*k1 9*k2 4*k3 3 - 1101952*k1 8*k2 5*k3 3 + 10843876*k1
    7*k2 6*k3 3 + 10843876*k1 6*k2 7*k3 3 - 1101952*k1 5*k2 8*k3 3 - 13226372*k1 4*k2 9*k3 3 - 1163050*k1 3*k2 10*k3 3 + 3327390*k1 2*k2 11*k3 3 +
    158400*k1 1*k2 12*k3 3 - 49500*k2 13*k3 3 - 198000*k1 12*k3 4 + 178200*k1 11*k2 1*k3 4 + 1126200*k1 10*k2 2*k3 4 + 1421960*k1 9*k2 3*k3 4 -
    7065440*k1 8*k2 4*k3 4 - 301490*k1 7*k2 5*k3 4 + 17206320*k1 6*k2 6*k3 4 - 301490*k1 5*k2 7*k3 4 - 7065440*k1 4*k2 8*k3 4 + 1421960*k1 3*k2 9*k3
    4 + 1126200*k1 2*k2 10*k3 4 + 178200*k1 1*k2 11*k3 4 - 198000*k2 12*k3 4 - 396000*k1 10*k2 1*k3 5 - 5360160*k1 9*k2 2*k3 5 + 1994620*k1 8*k2
    3*k3 5 + 7195124*k1 7*k2 4*k3 5 + 906244*k1 6*k2 5*k3 5 + 906244*k1 5*k2 6*k3 5 + 7195124*k1 4*k2 7*k3 5 + 1994620*k1 3*k2 8*k3 5 - 5360160*k1
    2*k2 9*k3 5 - 396000*k1 1*k2 10*k3 5 + 574200*k1 10*k3 6 - 649440*k1 9*k2 1*k3 6 - 4645800*k1 8*k2 2*k3 6 + 955267*k1 7*k2 3*k3 6 + 5839000*k1
    6*k2 4*k3 6 - 1013844*k1 5*k2 5*k3 6 + 5839000*k1 4*k2 6*k3 6 + 955267*k1 3*k2 7*k3 6 - 4645800*k1 2*k2 8*k3 6 - 649440*k1 1*k2 9*k3 6 +
    574200*k2 10*k3 6 + 297000*k1 9*k3 7 + 237600*k1 8*k2 1*k3 7 + 1026960*k1 7*k2 2*k3 7 - 515560*k1 6*k2 3*k3 7 + 712580*k1 5*k2 4*k3 7 +
    712580*k1 4*k2 5*k3 7 - 515560*k1 3*k2 6*k3 7 + 1026960*k1 2*k2 7*k3 7 + 237600*k1 1*k2 8*k3 7 + 297000*k2 9*k3 7 - 534600*k1 8*k3 8 + 681120*k1
    7*k2 1*k3 8 + 2206920*k1 6*k2 2*k3 8 - 754228*k1 5*k2 3*k3 8 + 274240*k1 4*k2 4*k3 8 - 754228*k1 3*k2 5*k3 8 + 2206920*k1 2*k2 6*k3 8 +
    681120*k1 1*k2 7*k3 8 - 534600*k2 8*k3 8 - 396000*k1 7*k3 9 + 79200*k1 6*k2 1*k3 9 + 927900*k1 5*k2 2*k3 9 - 279270*k1 4*k2 3*k3 9 - 279270*k1
    3*k2 4*k3 9 + 927900*k1 2*k2 5*k3 9 + 79200*k1 1*k2 6*k3 9 - 396000*k2 7*k3 9 + 138600*k1 6*k3 10 - 225720*k1 5*k2 1*k3 10 + 255480*k1 4*k2 2*k3
    10 - 68944*k1 3*k2 3*k3 10 + 255480*k1 2*k2 4*k3 10 - 225720*k1 1*k2 5*k3 10 + 138600*k2 6*k3 10 + 148500*k1 5*k3 11 - 79200*k1 4*k2 1*k3 11 +
    25050*k1 3*k2 2*k3 11 + 25050*k1 2*k2 3*k3 11 - 79200*k1 1*k2 4*k3 11 + 148500*k2 5*k3 11 + 19800*k1 4*k3 12 - 3960*k1 3*k2 1*k3 12 - 3960*k1
    1*k2 3*k3 12 + 19800*k2 4*k3 12))*π*q 12

/-- `kernel_poly[9]` of `kernel_gamma2d_reg3rd` (`src/gamma2d_1loop.c:1428-1514`). -/
def g2dPoly9 (k1 k2 k3 q : ℕ → ℝ) : ℝ :=
  (-(22680*k1 12*k2 3 + 226800*k1 11*k2 4 + 657720*k1 10*k2 5 + 249480*k1 9*k2 6 - 1156680*k1 8*k2 7 - 1156680*k1 7*k2 8 + 249480*k1 6*k2 9 +
    657720*k1 5*k2 10 + 226800*k1 4*k2 11 + 22680*k1 3*k2 12 + 3960*k1 13*k2 1*k3 1 + 211440*k1 12*k2 2*k3 1 - 258273*k1 11*k2 3*k3 1 - 625848*k1
    10*k2 4*k3 1 + 1641198*k1 9*k2 5*k3 1 + 469848*k1 8*k2 6*k3 1 - 2832990*k1 7*k2 7*k3 1 + 469848*k1 6*k2 8*k3 1 + 1641198*k1 5*k2 9*k3 1 -
    625848*k1 4*k2 10*k3 1 - 258273*k1 3*k2 11*k3 1 + 211440*k1 2*k2 12*k3 1 + 3960*k1 1*k2 13*k3 1 - 24750*k1 13*k3 2 + 79200*k1 12*k2 1*k3 2 +
    1714050*k1 11*k2 2*k3 2 - 1085250*k1 10*k2 3*k3 2 - 8968380*k1 9*k2 4*k3 2 - 1557810*k1 8*k2 5*k3 2 + 8446860*k1 7*k2 6*k3 2 + 8446860*k1 6*k2
    7*k3 2 - 1557810*k1 5*k2 8*k3 2 - 8968380*k1 4*k2 9*k3 2 - 1085250*k1 3*k2 10*k3 2 + 1714050*k1 2*k2 11*k3 2 + 79200*k1 1*k2 12*k3 2 - 24750*k2
    13*k3 2 - 198000*k1 12*k3 3 + 225720*k1 11*k2 1*k3 3 + 2737560*k1 10*k2 2*k3 3 - 995588*k1 9*k2 3*k3 3 - 12012928*k1 8*k2 4*k3 3 + 189014*k1
    7*k2 5*k3 3 + 18454704*k1 6*k2 6*k3 3 + 189014*k1 5*k2 7*k3 3 - 12012928*k1 4*k2 8*k3 3 - 995588*k1 3*k2 9*k3 3 + 2737560*k1 2*k2 10*k3 3 +
    225720*k1 1*k2 11*k3 3 - 198000*k2 12*k3 3 - 222750*k1 11*k3 4 - 79200*k1 10*k2 1*k3 4 - 1150800*k1 9*k2 2*k3 4 + 726490*k1 8*k2 3*k3 4 +
    3558700*k1 7*k2 4*k3 4 + 3244480*k1 6*k2 5*k3 4 + 3244480*k1 5*k2 6*k3 4 + 3558700*k1 4*k2 7*k3 4 + 726490*k1 3*k2 8*k3 4 - 1150800*k1 2*k2 9*k3
    4 - 79200*k1 1*k2 10*k3 4 - 222750*k2 11*k3 4 + 495000*k1 10*k3 5 - 681120*k1 9*k2 1*k3 5 - 4920840*k1 8*k2 2*k3 5 + 2088971*k1 7*k2 3*k3 5 +
    7136376*k1 6*k2 4*k3 5 - 220564*k1 5*k2 5*k3 5 + 7136376*k1 4*k2 6*k3 5 + 2088971*k1 3*k2 7*k3 5 - 4920840*k1 2*k2 8*k3 5 - 681120*k1 1*k2 9*k3
    5 + 495000*k2 10*k3 5 + 811800*k1 9*k3 6 - 237600*k1 8*k2 1*k3 6 - 1992600*k1 7*k2 2*k3 6 + 695080*k1 6*k2 3*k3 6 + 950920*k1 5*k2 4*k3 6 +
    950920*k1 4*k2 5*k3 6 + 695080*k1 3*k2 6*k3 6 - 1992600*k1 2*k2 7*k3 6 - 237600*k1 1*k2 8*k3 6 + 811800*k2 9*k3 6 - 297000*k1 8*k3 7 + 649440*k1
    7*k2 1*k3 7 + 1496040*k1 6*k2 2*k3 7 - 680650*k1 5*k2 3*k3 7 - 157760*k1 4*k2 4*k3 7 - 680650*k1 3*k2 5*k3 7 + 1496040*k1 2*k2 6*k3 7 +
    649440*k1 1*k2 7*k3 7 - 297000*k2 8*k3 7 - 851400*k1 7*k3 8 + 396000*k1 6*k2 1*k3 8 + 1365480*k1 5*k2 2*k3 8 - 444440*k1 4*k2 3*k3 8 - 444440*k1
    3*k2 4*k3 8 + 1365480*k1 2*k2 5*k3 8 + 396000*k1 1*k2 6*k3 8 - 851400*k2 7*k3 8 - 99000*k1 6*k3 9 - 178200*k1 5*k2 1*k3 9 + 475800*k1 4*k2 2*k3
    9 - 158580*k1 3*k2 3*k3 9 + 475800*k1 2*k2 4*k3 9 - 178200*k1 1*k2 5*k3 9 - 99000*k2 6*k3 9 + 282150*k1 5*k3 10 - 158400*k1 4*k2 1*k3 10 +
    63870*k1 3*k2 2*k3 10 + 63870*k1 2*k2 3*k3 10 - 158400*k1 1*k2 4*k3 10 + 282150*k2 5*k3 10 + 99000*k1 4*k3 11 - 19800*k1 3*k2 1*k3 11 - 19800*k1
    1*k2 3*k3 11 + 99000*k2 4*k3 11 + 4950*k1 3*k3 12 + 4950*k2 3*k3 12))*π*q 13

/-- `kernel_poly[10]` of `kernel_gamma2d_reg3rd` (`src/gamma2d_1loop.c:1516-1588`). -/
def g2dPoly10 (k1 k2 k3 q : ℕ → ℝ) : ℝ :=
  (-(56700*k1 11*k2 3 + 453600*k1 10*k2 4 + 771120*k1 9*k2 5 - 453600*k1 8*k2 6 - 1655640*k1 7*k2 7 - 453600*k1 6*k2 8 + 771120*k1 5*k2 9 +
    453600*k1 4*k2 10 + 56700*k1 3*k2 11 - 4950*k1 13*k3 1 + 15840*k1 12*k2 1*k3 1 + 342810*k1 11*k2 2*k3 1 - 110202*k1 10*k2 3*k3 1 - 1180812*k1
    9*k2 4*k3 1 + 160182*k1 8*k2 5*k3 1 + 751932*k1 7*k2 6*k3 1 + 751932*k1 6*k2 7*k3 1 + 160182*k1 5*k2 8*k3 1 - 1180812*k1 4*k2 9*k3 1 - 110202*k1
    3*k2 10*k3 1 + 342810*k1 2*k2 11*k3 1 + 15840*k1 1*k2 12*k3 1 - 4950*k2 13*k3 1 - 99000*k1 12*k3 2 + 118800*k1 11*k2 1*k3 2 + 1570200*k1 10*k2
    2*k3 2 - 1231170*k1 9*k2 3*k3 2 - 7791240*k1 8*k2 4*k3 2 + 398265*k1 7*k2 5*k3 2 + 11279280*k1 6*k2 6*k3 2 + 398265*k1 5*k2 7*k3 2 - 7791240*k1
    4*k2 8*k3 2 - 1231170*k1 3*k2 9*k3 2 + 1570200*k1 2*k2 10*k3 2 + 118800*k1 1*k2 11*k3 2 - 99000*k2 12*k3 2 - 282150*k1 11*k3 3 + 110880*k1 10*k2
    1*k3 3 + 1423920*k1 9*k2 2*k3 3 - 1194262*k1 8*k2 3*k3 3 - 2374372*k1 7*k2 4*k3 3 + 2353016*k1 6*k2 5*k3 3 + 2353016*k1 5*k2 6*k3 3 - 2374372*k1
    4*k2 7*k3 3 - 1194262*k1 3*k2 8*k3 3 + 1423920*k1 2*k2 9*k3 3 + 110880*k1 1*k2 10*k3 3 - 282150*k2 11*k3 3 + 99000*k1 10*k3 4 - 316800*k1 9*k2
    1*k3 4 - 1776600*k1 8*k2 2*k3 4 + 1541200*k1 7*k2 3*k3 4 + 4099680*k1 6*k2 4*k3 4 + 509720*k1 5*k2 5*k3 4 + 4099680*k1 4*k2 6*k3 4 + 1541200*k1
    3*k2 7*k3 4 - 1776600*k1 2*k2 8*k3 4 - 316800*k1 1*k2 9*k3 4 + 99000*k2 10*k3 4 + 851400*k1 9*k3 5 - 427680*k1 8*k2 1*k3 5 - 2973240*k1 7*k2
    2*k3 5 + 1586904*k1 6*k2 3*k3 5 + 1171224*k1 5*k2 4*k3 5 + 1171224*k1 4*k2 5*k3 5 + 1586904*k1 3*k2 6*k3 5 - 2973240*k1 2*k2 7*k3 5 - 427680*k1
    1*k2 8*k3 5 + 851400*k2 9*k3 5 + 297000*k1 8*k3 6 + 237600*k1 7*k2 1*k3 6 - 444600*k1 6*k2 2*k3 6 - 91250*k1 5*k2 3*k3 6 - 763440*k1 4*k2 4*k3 6
    - 91250*k1 3*k2 5*k3 6 - 444600*k1 2*k2 6*k3 6 + 237600*k1 1*k2 7*k3 6 + 297000*k2 8*k3 6 - 811800*k1 7*k3 7 + 459360*k1 6*k2 1*k3 7 +
    1087560*k1 5*k2 2*k3 7 - 454520*k1 4*k2 3*k3 7 - 454520*k1 3*k2 4*k3 7 + 1087560*k1 2*k2 5*k3 7 + 459360*k1 1*k2 6*k3 7 - 811800*k2 7*k3 7 -
    495000*k1 6*k3 8 + 651000*k1 4*k2 2*k3 8 - 239360*k1 3*k2 3*k3 8 + 651000*k1 2*k2 4*k3 8 - 495000*k2 6*k3 8 + 222750*k1 5*k3 9 - 158400*k1 4*k2
    1*k3 9 + 118950*k1 3*k2 2*k3 9 + 118950*k1 2*k2 3*k3 9 - 158400*k1 1*k2 4*k3 9 + 222750*k2 5*k3 9 + 198000*k1 4*k3 10 - 39600*k1 3*k2 1*k3 10 -
    39600*k1 1*k2 3*k3 10 + 198000*k2 4*k3 10 + 24750*k1 3*k3 11 + 24750*k2 3*k3 11))*π*q 14

/-- `kernel_poly[11]` of `kernel_gamma2d_reg3rd` (`src/gamma2d_1loop.c:1590-1696`). -/
def g2dPoly11 (k1 k2 k3 q : ℕ → ℝ) : ℝ :=
  (-(113400*k1 10*k2 3 + 567000*k1 9*k2 4 + 340200*k1 8*k2 5 - 1020600*k1 7*k2 6 - 1020600*k1 6*k2 7 + 340200*k1 5*k2 8 + 567000*k1 4*k2 9 +
    113400*k1 3*k2 10 - 19800*k1 12*k3 1 + 23760*k1 11*k2 1*k3 1 + 314040*k1 10*k2 2*k3 1 - 93018*k1 9*k2 3*k3 1 - 1114728*k1 8*k2 4*k3 1 + 59493*k1
    7*k2 5*k3 1 + 1610736*k1 6*k2 6*k3 1 + 59493*k1 5*k2 7*k3 1 - 1114728*k1 4*k2 8*k3 1 - 93018*k1 3*k2 9*k3 1 + 314040*k1 2*k2 10*k3 1 + 23760*k1
    1*k2 11*k3 1 - 19800*k2 12*k3 1 - 148500*k1 11*k3 2 + 79200*k1 10*k2 1*k3 2 + 1033800*k1 9*k2 2*k3 2 - 1128810*k1 8*k2 3*k3 2 - 2262510*k1 7*k2
    4*k3 2 + 1481820*k1 6*k2 5*k3 2 + 1481820*k1 5*k2 6*k3 2 - 2262510*k1 4*k2 7*k3 2 - 1128810*k1 3*k2 8*k3 2 + 1033800*k1 2*k2 9*k3 2 + 79200*k1
    1*k2 10*k3 2 - 148500*k2 11*k3 2 - 138600*k1 10*k3 3 - 31680*k1 9*k2 1*k3 3 + 465480*k1 8*k2 2*k3 3 + 5612*k1 7*k2 3*k3 3 - 156288*k1 6*k2 4*k3
    3 + 184864*k1 5*k2 5*k3 3 - 156288*k1 4*k2 6*k3 3 + 5612*k1 3*k2 7*k3 3 + 465480*k1 2*k2 8*k3 3 - 31680*k1 1*k2 9*k3 3 - 138600*k2 10*k3 3 +
    396000*k1 9*k3 4 - 237600*k1 8*k2 1*k3 4 - 1429650*k1 7*k2 2*k3 4 + 1096170*k1 6*k2 3*k3 4 + 630720*k1 5*k2 4*k3 4 + 630720*k1 4*k2 5*k3 4 +
    1096170*k1 3*k2 6*k3 4 - 1429650*k1 2*k2 7*k3 4 - 237600*k1 1*k2 8*k3 4 + 396000*k2 9*k3 4 + 534600*k1 8*k3 5 - 47520*k1 7*k2 1*k3 5 -
    1350360*k1 6*k2 2*k3 5 + 337446*k1 5*k2 3*k3 5 - 969264*k1 4*k2 4*k3 5 + 337446*k1 3*k2 5*k3 5 - 1350360*k1 2*k2 6*k3 5 - 47520*k1 1*k2 7*k3 5 +
    534600*k2 8*k3 5 - 297000*k1 7*k3 6 + 237600*k1 6*k2 1*k3 6 + 233100*k1 5*k2 2*k3 6 - 301110*k1 4*k2 3*k3 6 - 301110*k1 3*k2 4*k3 6 + 233100*k1
    2*k2 5*k3 6 + 237600*k1 1*k2 6*k3 6 - 297000*k2 7*k3 6 - 574200*k1 6*k3 7 + 95040*k1 5*k2 1*k3 7 + 570840*k1 4*k2 2*k3 7 - 217400*k1 3*k2 3*k3 7
    + 570840*k1 2*k2 4*k3 7 + 95040*k1 1*k2 5*k3 7 - 574200*k2 6*k3 7 - 79200*k1 4*k2 1*k3 8 + 162750*k1 3*k2 2*k3 8 + 162750*k1 2*k2 3*k3 8 -
    79200*k1 1*k2 4*k3 8 + 198000*k1 4*k3 9 - 39600*k1 3*k2 1*k3 9 - 39600*k1 1*k2 3*k3 9 + 198000*k2 4*k3 9 + 49500*k1 3*k3 10 + 49500*k2 3*k3
    10))*π*q 15 - (141750*k1 9*k2 3 + 362880*k1 8*k2 4 - 141750*k1 7*k2 5 - 725760*k1 6*k2 6 - 141750*k1 5*k2 7 + 362880*k1 4*k2 8 + 141750*k1 3*k2
    9 - 29700*k1 11*k3 1 + 15840*k1 10*k2 1*k3 1 + 206760*k1 9*k2 2*k3 1 - 114882*k1 8*k2 3*k3 1 - 281142*k1 7*k2 4*k3 1 + 195564*k1 6*k2 5*k3 1 +
    195564*k1 5*k2 6*k3 1 - 281142*k1 4*k2 7*k3 1 - 114882*k1 3*k2 8*k3 1 + 206760*k1 2*k2 9*k3 1 + 15840*k1 1*k2 10*k3 1 - 29700*k2 11*k3 1 -
    99000*k1 10*k3 2 + 19800*k1 9*k2 1*k3 2 + 513000*k1 8*k2 2*k3 2 - 272565*k1 7*k2 3*k3 2 - 655920*k1 6*k2 4*k3 2 + 118080*k1 5*k2 5*k3 2 -
    655920*k1 4*k2 6*k3 2 - 272565*k1 3*k2 7*k3 2 + 513000*k1 2*k2 8*k3 2 + 19800*k1 1*k2 9*k3 2 - 99000*k2 10*k3 2 + 39600*k1 9*k3 3 - 47520*k1
    8*k2 1*k3 3 - 80730*k1 7*k2 2*k3 3 + 88218*k1 6*k2 3*k3 3 - 35112*k1 5*k2 4*k3 3 - 35112*k1 4*k2 5*k3 3 + 88218*k1 3*k2 6*k3 3 - 80730*k1 2*k2
    7*k3 3 - 47520*k1 1*k2 8*k3 3 + 39600*k2 9*k3 3 + 297000*k1 8*k3 4 - 59400*k1 7*k2 1*k3 4 - 788400*k1 6*k2 2*k3 4 + 251430*k1 5*k2 3*k3 4 -
    606960*k1 4*k2 4*k3 4 + 251430*k1 3*k2 5*k3 4 - 788400*k1 2*k2 6*k3 4 - 59400*k1 1*k2 7*k3 4 + 297000*k2 8*k3 4 + 59400*k1 7*k3 5 + 47520*k1
    6*k2 1*k3 5 - 268740*k1 5*k2 2*k3 5 - 167166*k1 4*k2 3*k3 5 - 167166*k1 3*k2 4*k3 5 - 268740*k1 2*k2 5*k3 5 + 47520*k1 1*k2 6*k3 5 + 59400*k2
    7*k3 5 - 297000*k1 6*k3 6 + 59400*k1 5*k2 1*k3 6 + 275400*k1 4*k2 2*k3 6 - 102840*k1 3*k2 3*k3 6 + 275400*k1 2*k2 4*k3 6 + 59400*k1 1*k2 5*k3 6
    - 297000*k2 6*k3 6 - 118800*k1 5*k3 7 - 15840*k1 4*k2 1*k3 7 + 142710*k1 3*k2 2*k3 7 + 142710*k1 2*k2 3*k3 7 - 15840*k1 1*k2 4*k3 7 - 118800*k2
    5*k3 7 + 99000*k1 4*k3 8 - 19800*k1 3*k2 1*k3 8 - 19800*k1 1*k2 3*k3 8 + 99000*k2 4*k3 8 + 49500*k1 3*k3 9 + 49500*k2 3*k3 9)*π*q 16

/-- `kernel_poly[12]` of `kernel_gamma2d_reg3rd` (`src/gamma2d_1loop.c:1698-1748`). -/
def g2dPoly12 (k1 k2 k3 q : ℕ → ℝ) : ℝ :=
  (-(90720*k1 8*k2 3 + 90720*k1 7*k2 4 - 181440*k1 6*k2 5 - 181440*k1 5*k2 6 + 90720*k1 4*k2 7 + 90720*k1 3*k2 8 - 19800*k1 10*k3 1 + 3960*k1 9*k2
    1*k3 1 + 102600*k1 8*k2 2*k3 1 - 11673*k1 7*k2 3*k3 1 - 82800*k1 6*k2 4*k3 1 + 13536*k1 5*k2 5*k3 1 - 82800*k1 4*k2 6*k3 1 - 11673*k1 3*k2 7*k3
    1 + 102600*k1 2*k2 8*k3 1 + 3960*k1 1*k2 9*k3 1 - 19800*k2 10*k3 1 - 24750*k1 9*k3 2 + 128250*k1 7*k2 2*k3 2 - 93330*k1 6*k2 3*k3 2 - 131130*k1
    5*k2 4*k3 2 - 131130*k1 4*k2 5*k3 2 - 93330*k1 3*k2 6*k3 2 + 128250*k1 2*k2 7*k3 2 - 24750*k2 9*k3 2 + 59400*k1 8*k3 3 - 11880*k1 7*k2 1*k3 3 -
    157680*k1 6*k2 2*k3 3 + 38232*k1 5*k2 3*k3 3 - 97200*k1 4*k2 4*k3 3 + 38232*k1 3*k2 5*k3 3 - 157680*k1 2*k2 6*k3 3 - 11880*k1 1*k2 7*k3 3 +
    59400*k2 8*k3 3 + 74250*k1 7*k3 4 - 197100*k1 5*k2 2*k3 4 - 90990*k1 4*k2 3*k3 4 - 90990*k1 3*k2 4*k3 4 - 197100*k1 2*k2 5*k3 4 + 74250*k2 7*k3
    4 - 59400*k1 6*k3 5 + 11880*k1 5*k2 1*k3 5 + 55080*k1 4*k2 2*k3 5 - 23004*k1 3*k2 3*k3 5 + 55080*k1 2*k2 4*k3 5 + 11880*k1 1*k2 5*k3 5 -
    59400*k2 6*k3 5 - 74250*k1 5*k3 6 + 68850*k1 3*k2 2*k3 6 + 68850*k1 2*k2 3*k3 6 - 74250*k2 5*k3 6 + 19800*k1 4*k3 7 - 3960*k1 3*k2 1*k3 7 -
    3960*k1 1*k2 3*k3 7 + 19800*k2 4*k3 7 + 24750*k1 3*k3 8 + 24750*k2 3*k3 8))*π*q 17 - (22680*k1 7*k2 3 - 45360*k1 5*k2 5 + 22680*k1 3*k2 7 -
    4950*k1 9*k3 1 + 25650*k1 7*k2 2*k3 1 - 6570*k1 6*k2 3*k3 1 - 14130*k1 5*k2 4*k3 1 - 14130*k1 4*k2 5*k3 1 - 6570*k1 3*k2 6*k3 1 + 25650*k1 2*k2
    7*k3 1 - 4950*k2 9*k3 1 - 15120*k1 5*k2 3*k3 2 - 15120*k1 3*k2 5*k3 2 + 14850*k1 7*k3 3 - 39420*k1 5*k2 2*k3 3 - 12150*k1 4*k2 3*k3 3 - 12150*k1
    3*k2 4*k3 3 - 39420*k1 2*k2 5*k3 3 + 14850*k2 7*k3 3 - 7560*k1 3*k2 3*k3 4 - 14850*k1 5*k3 5 + 13770*k1 3*k2 2*k3 5 + 13770*k1 2*k2 3*k3 5 -
    14850*k2 5*k3 5 + 4950*k1 3*k3 7 + 4950*k2 3*k3 7)*π*q 18

/-- `kernel_beta[0]` of `kernel_gamma2d_reg3rd` (`src/gamma2d_1loop.c:1750-1792`). -/
def g2dBeta0 (k1 k2 k3 q : ℕ → ℝ) : ℝ :=
  π*((-840)*k1 10*k2 7*(k2 2 - q 2)*(k2 2 - q 2)*((-2)*k3 4 - 7*k3 2*q 2 + 9*q 4)/(Real.sqrt (k3 2*(k2 2 - q 2) + q 2*(k1 2 - k2 2 + q 2))) - 840*k1
    7*k2 10*(k1 2 - q 2)*(k1 2 - q 2)*((-2)*k3 4 - 7*k3 2*q 2 + 9*q 4)/(Real.sqrt (k3 2*(k1 2 - q 2) + q 2*(-k1 2 + k2 2 + q 2))) + 4320*k1 7*k2
    7*k3 3*(k1 2 - q 2)*(k1 2 - q 2)*(k2 2 - q 2)*(k2 2 - q 2)/(Real.sqrt (k1 2*(k2 2 - q 2) + q 2*(-k2 2 + k3 2 + q 2))) - 4320*k1 7*k2 7*k3 3*(k1
    2 - q 2)*(k1 2 - q 2)*(k2 2 - q 2)*(k2 2 - q 2)*(power (1 - Real.sqrt (k1 2*k2 2 + (-k1 2 - k2 2 + k3 2)*q 2 + q 4)/(k3 1*q 1)) 2)/(Real.sqrt
    (k1 2*(k2 2 - q 2) + q 2*(-k2 2 + k3 2 + q 2))*(power (1 + Real.sqrt (k1 2*k2 2 + (-k1 2 - k2 2 + k3 2)*q 2 + q 4)/(k3 1*q 1)) 2)) + 840*k1 7*k2
    10*(k1 2 - q 2)*(k1 2 - q 2)*((-2)*k3 4 - 7*k3 2*q 2 + 9*q 4)*(power (1 - Real.sqrt (k1 2*k3 2 - (k1 2 - k2 2 + k3 2)*q 2 + q 4)/(k2 1*q 1))
    2)/(Real.sqrt (k3 2*(k1 2 - q 2) + q 2*(-k1 2 + k2 2 + q 2))*(power (1 + Real.sqrt (k1 2*k3 2 - (k1 2 - k2 2 + k3 2)*q 2 + q 4)/(k2 1*q 1)) 2))
    + 840*k1 10*k2 7*(k2 2 - q 2)*(k2 2 - q 2)*((-2)*k3 4 - 7*k3 2*q 2 + 9*q 4)*(power (1 - Real.sqrt (k2 2*k3 2 - (-k1 2 + k2 2 + k3 2)*q 2 + q
    4)/(k1 1*q 1)) 2)/(Real.sqrt (k3 2*(k2 2 - q 2) + q 2*(k1 2 - k2 2 + q 2))*(power (1 + Real.sqrt (k2 2*k3 2 - (-k1 2 + k2 2 + k3 2)*q 2 + q
    4)/(k1 1*q 1)) 2)))/(2.483712e7*k1 9*k2 9*q 5)

/-- `kernel_beta[1]` of `kernel_gamma2d_reg3rd` (`src/gamma2d_1loop.c:1794-1810`). -/
def g2dBeta1 (k1 k2 k3 q : ℕ → ℝ) : ℝ :=
  (-(π*(k1 2 - q 2)*(39*k1 12 + 165*(power (k2 2 - k3 2) 3)*q 6 - k1 10*(582*k2 2 + 791*k3 2 + 1947*q 2) - 3*k1 2*(-k2 2 + k3 2)*q 4*(85*k3 4 - 3*k2
    2*(186*k2 2 + 95*q 2) + k3 2*(473*k2 2 + 153*q 2)) + k1 8*(51*k2 4 + 601*k3 4 + 6891*k2 2*q 2 + 1689*q 4 + k3 2*(2120*k2 2 + 1787*q 2)) + k1
    6*(492*k2 6 + 151*k3 6 - 6465*k2 4*q 2 - 7284*k2 2*q 4 + 219*q 6 + k3 4*(390*k2 2 + 179*q 2) + k3 2*((-633)*k2 4 + 758*k2 2*q 2 - 1113*q 4)) +
    k1 4*q 2*(1017*k2 6 + 269*k3 6 + 7269*k2 4*q 2 + 471*k2 2*q 4 + k3 4*(391*k2 2 - 321*q 2) + k3 2*((-1677)*k2 4 - 4376*k2 2*q 2 + 405*q 4)))*(k1
    1 + q 1)*(k1 1 + q 1)*(smallBeta (k1 1) (q 1))))/(1.655808e6*k1 9*k2 2*q 5)

/-- `kernel_beta[2]` of `kernel_gamma2d_reg3rd` (`src/gamma2d_1loop.c:1812-1834`). -/
def g2dBeta2 (k1 k2 k3 q : ℕ → ℝ) : ℝ :=
  (-(π*(k2 2 - q 2)*(k3 6*(151*k2 6 + 269*k2 4*q 2 - 255*k2 2*q 4 - 165*q 6) + k3 4*(601*k2 8 + 179*k2 6*q 2 - 321*k2 4*q 4 - 459*k2 2*q 6 + k1
    2*(390*k2 6 + 391*k2 4*q 2 - 1164*k2 2*q 4 + 495*q 6)) + k3 2*((-791)*k2 10 + 1787*k2 8*q 2 - 1113*k2 6*q 4 + 405*k2 4*q 6 - 3*k1 4*(211*k2 6 +
    559*k2 4*q 2 - 1031*k2 2*q 4 + 165*q 6) + 2*k1 2*(1060*k2 8 + 379*k2 6*q 2 - 2188*k2 4*q 4 + 657*k2 2*q 6)) + 3*(k1 6*(164*k2 6 + 339*k2 4*q 2 -
    558*k2 2*q 4 + 55*q 6) + k2 6*(13*k2 6 - 649*k2 4*q 2 + 563*k2 2*q 4 + 73*q 6) + k1 4*(17*k2 8 - 2155*k2 6*q 2 + 2423*k2 4*q 4 - 285*k2 2*q 6) +
    k1 2*((-194)*k2 10 + 2297*k2 8*q 2 - 2428*k2 6*q 4 + 157*k2 4*q 6)))*(k2 1 + q 1)*(k2 1 + q 1)*(smallBeta (k2 1) (q 1))))/(1.655808e6*k1 2*k2
    9*q 5)

/-- `kernel_beta[3]` of `kernel_gamma2d_reg3rd` (`src/gamma2d_1loop.c:1836-1850`). -/
def g2dBeta3 (k1 k2 k3 q : ℕ → ℝ) : ℝ :=
  π*(2*k3 2 + 9*q 2)*((-15)*(k1 2 + k2 2)*k3 8 - 2*k3 10 - 3*(k1 2 - k2 2)*(k1 2 - k2 2)*q 4*(k1 2 + k2 2 + 4*q 2) + 2*k3 6*(8*k1 4 + 8*k2 4 + 23*k2
    2*q 2 - q 4 + k1 2*((-16)*k2 2 + 23*q 2)) + k3 4*(k1 6 + k2 6 - 56*k2 4*q 2 - 47*k2 2*q 4 + 4*q 6 - k1 4*(9*k2 2 + 56*q 2) + k1 2*((-9)*k2 4 +
    136*k2 2*q 2 - 47*q 4)) + 2*k3 2*q 2*(k1 6 + k2 6 + 26*k2 4*q 2 + 4*k2 2*q 4 - k1 4*(k2 2 - 26*q 2) - k1 2*(k2 4 + 48*k2 2*q 2 - 4*q 4)))*(k3 1
    + q 1)*(k3 1 + q 1)*(smallBeta (k3 1) (q 1))/(236544*k1 2*k2 2*k3 5*q 5)

/-- `kernel_beta[4]` of `kernel_gamma2d_reg3rd` (`src/gamma2d_1loop.c:1852-1857`). -/
def g2dBeta4 (k1 k2 k3 q : ℕ → ℝ) : ℝ :=
  3*k3 3*π*(k1 2 - q 2)*(k2 2 - q 2)*(bigBeta (k1 1) (k2 1) (k3 1) (q 1))/(17248*k1 2*k2 2*q 5) - (-k2 1)*π*(2*k3 2 + 9*q 2)*(k1 2 - q 2)*(bigBeta
    (k1 1) (k3 1) (k2 1) (q 1))/(29568*k1 2*q 5) - (-k1 1)*π*(2*k3 2 + 9*q 2)*(k2 2 - q 2)*(bigBeta (k2 1) (k3 1) (k1 1) (q 1))/(29568*k2 2*q 5)

/-- The common denominator of the polynomial part of `kernel_gamma2d_reg3rd`. -/
def g2dDen (k1 k2 k3 q : ℕ → ℝ) : ℝ :=
  776160*k1 5*k2 5*k3 1*q 4*(power ((k1 1 + q 1)*(k2 1 + q 1)*(k3 1 + q 1)) 4)*(k3 1 + q 1)

/-- `kernel_gamma2d_reg3rd` (`src/gamma2d_1loop.c:516-1871`). -/
def g2dReg3rd (k1 k2 k3 q : ℝ) : ℝ :=
  4*((g2dPoly0 (pw k1) (pw k2) (pw k3) (pw q)/g2dDen (pw k1) (pw k2) (pw k3) (pw q) + g2dPoly1 (pw k1) (pw k2) (pw k3) (pw q)/g2dDen (pw k1) (pw k2)
    (pw k3) (pw q) + g2dPoly2 (pw k1) (pw k2) (pw k3) (pw q)/g2dDen (pw k1) (pw k2) (pw k3) (pw q) + g2dPoly3 (pw k1) (pw k2) (pw k3) (pw q)/g2dDen
    (pw k1) (pw k2) (pw k3) (pw q) + g2dPoly4 (pw k1) (pw k2) (pw k3) (pw q)/g2dDen (pw k1) (pw k2) (pw k3) (pw q) + g2dPoly5 (pw k1) (pw k2) (pw
    k3) (pw q)/g2dDen (pw k1) (pw k2) (pw k3) (pw q) + g2dPoly6 (pw k1) (pw k2) (pw k3) (pw q)/g2dDen (pw k1) (pw k2) (pw k3) (pw q) + g2dPoly7 (pw
    k1) (pw k2) (pw k3) (pw q)/g2dDen (pw k1) (pw k2) (pw k3) (pw q) + g2dPoly8 (pw k1) (pw k2) (pw k3) (pw q)/g2dDen (pw k1) (pw k2) (pw k3) (pw q)
    + g2dPoly9 (pw k1) (pw k2) (pw k3) (pw q)/g2dDen (pw k1) (pw k2) (pw k3) (pw q) + g2dPoly10 (pw k1) (pw k2) (pw k3) (pw q)/g2dDen (pw k1) (pw
    k2) (pw k3) (pw q) + g2dPoly11 (pw k1) (pw k2) (pw k3) (pw q)/g2dDen (pw k1) (pw k2) (pw k3) (pw q) + g2dPoly12 (pw k1) (pw k2) (pw k3) (pw
    q)/g2dDen (pw k1) (pw k2) (pw k3) (pw q)) + (g2dBeta0 (pw k1) (pw k2) (pw k3) (pw q) + g2dBeta1 (pw k1) (pw k2) (pw k3) (pw q) + g2dBeta2 (pw
    k1) (pw k2) (pw k3) (pw q) + g2dBeta3 (pw k1) (pw k2) (pw k3) (pw q) + g2dBeta4 (pw k1) (pw k2) (pw k3) (pw q)))

end

end Verif
