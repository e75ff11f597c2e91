import Verif.Proofs.Gamma2Sym
import Verif.Props.Triangle

/-!
# The exact second-order loop kernels as linear forms in their logarithms

Coefficients found by `tools/g2limits` and checked here against the expressions of `Verif.Model.Gamma2d` and `Verif.Model.Gamma2t`.
-/

set_option linter.unusedSimpArgs false

namespace Verif

noncomputable section

open Real

/-- `log|(s+a)/(s-a)|` over `s`, twice, with `s²=m`: the combination of `WFunc` and a square root in which the exact kernels are
linear (`src/kernels.c:44-56`, `src/gamma2d_1loop.c:116-126`). -/
def triLog (a m : ℝ) : ℝ := 2 * Real.log |(Real.sqrt m + a) / (Real.sqrt m - a)| / Real.sqrt m

/-- The argument of the square root of `WFunc` (`src/kernels.c:53`). -/
def triM (a b c q : ℝ) : ℝ := (a ^ 2 - q ^ 2) * (b ^ 2 - q ^ 2) + (c * q) ^ 2

/-- The part of `kernel_gamma2d_exact` without logarithms (`src/gamma2d_1loop.c:10-132`), without the factor `π`. -/
def g2dC0 (k1 k2 k3 q : ℕ → ℝ) : ℝ :=
  ((585*k1 14*k2 6*k3 4 - 1350*k1 12*k2 8*k3 4 - 12075*k1 12*k2 6*k3 6 + 1530*k1 10*k2 10*k3 4 + 22515*k1 10*k2 8*k3 6 + 5655*k1 10*k2
    6*k3 8 - 1350*k1 8*k2 12*k3 4 + 22515*k1 8*k2 10*k3 6 + 14100*k1 8*k2 8*k3 8 + 5415*k1 8*k2 6*k3 10 + 585*k1 6*k2 14*k3 4 - 12075*k1
    6*k2 12*k3 6 + 5655*k1 6*k2 10*k3 8 + 5415*k1 6*k2 8*k3 10 + 420*k1 6*k2 6*k3 12) + (-(27330*k1 12*k2 6*k3 4) + 19770*k1 10*k2 8*k3 4 +
    222610*k1 10*k2 6*k3 6 + 19770*k1 8*k2 10*k3 4 - 455660*k1 8*k2 8*k3 6 - 120370*k1 8*k2 6*k3 8 - 27330*k1 6*k2 12*k3 4 + 222610*k1 6*k2
    10*k3 6 - 120370*k1 6*k2 8*k3 8 - 68910*k1 6*k2 6*k3 10)*q 2 + (3150*k1 12*k2 6*k3 2 + 58425*k1 12*k2 4*k3 4 - 3150*k1 10*k2 8*k3 2 -
    419226*k1 10*k2 6*k3 4 - 106440*k1 10*k2 4*k3 6 - 3150*k1 8*k2 10*k3 2 + 740922*k1 8*k2 8*k3 4 + 250234*k1 8*k2 6*k3 6 + 38925*k1 8*k2
    4*k3 8 + 3150*k1 6*k2 12*k3 2 - 419226*k1 6*k2 10*k3 4 + 250234*k1 6*k2 8*k3 6 + 9532*k1 6*k2 6*k3 8 + 9090*k1 6*k2 4*k3 10 + 58425*k1
    4*k2 12*k3 4 - 106440*k1 4*k2 10*k3 6 + 38925*k1 4*k2 8*k3 8 + 9090*k1 4*k2 6*k3 10)*q 4 + (-(2835*k1 12*k2 6) - 29235*k1 12*k2 2*k3 4 +
    2835*k1 10*k2 8 + 54180*k1 10*k2 6*k3 2 + 130410*k1 10*k2 4*k3 4 + 58770*k1 10*k2 2*k3 6 + 2835*k1 8*k2 10 - 100800*k1 8*k2 8*k3 2 -
    148950*k1 8*k2 6*k3 4 - 98490*k1 8*k2 4*k3 6 - 29835*k1 8*k2 2*k3 8 - 2835*k1 6*k2 12 + 54180*k1 6*k2 10*k3 2 - 148950*k1 6*k2 8*k3 4 -
    57210*k1 6*k2 6*k3 6 + 6660*k1 6*k2 4*k3 8 + 300*k1 6*k2 2*k3 10 + 130410*k1 4*k2 10*k3 4 - 98490*k1 4*k2 8*k3 6 + 6660*k1 4*k2 6*k3 8 -
    29235*k1 2*k2 12*k3 4 + 58770*k1 2*k2 10*k3 6 - 29835*k1 2*k2 8*k3 8 + 300*k1 2*k2 6*k3 10)*q 6 + (2475*k1 12*k3 4 - 11340*k1 10*k2 6 -
    12825*k1 10*k2 2*k3 4 - 7425*k1 10*k3 6 + 22680*k1 8*k2 8 + 7560*k1 8*k2 6*k3 2 + 7065*k1 8*k2 4*k3 4 + 19710*k1 8*k2 2*k3 6 + 7425*k1
    8*k3 8 - 11340*k1 6*k2 10 + 7560*k1 6*k2 8*k3 2 + 10350*k1 6*k2 6*k3 4 + 6075*k1 6*k2 4*k3 6 - 6885*k1 6*k2 2*k3 8 - 2475*k1 6*k3 10 +
    7065*k1 4*k2 8*k3 4 + 6075*k1 4*k2 6*k3 6 - 12825*k1 2*k2 10*k3 4 + 19710*k1 2*k2 8*k3 6 - 6885*k1 2*k2 6*k3 8 + 2475*k2 12*k3 4 -
    7425*k2 10*k3 6 + 7425*k2 8*k3 8 - 2475*k2 6*k3 10)*q 8)/(1552320*k1 8*k2 8*k3 4*q 4)

/-- Coefficient of `LFunc(k1,q)` in `kernel_gamma2d_exact` (`src/gamma2d_1loop.c:10-132`), without the factor `π`. -/
def g2dCL1 (k1 k2 k3 q : ℕ → ℝ) : ℝ :=
  ((-(39*k1 16) + 582*k1 14*k2 2 + 791*k1 14*k3 2 - 51*k1 12*k2 4 - 2120*k1 12*k2 2*k3 2 - 601*k1 12*k3 4 - 492*k1 10*k2 6 + 633*k1 10*k2
    4*k3 2 - 390*k1 10*k2 2*k3 4 - 151*k1 10*k3 6) + (2025*k1 14 - 8055*k1 12*k2 2 - 3369*k1 12*k3 2 + 6567*k1 10*k2 4 + 3482*k1 10*k2 2*k3
    2 + 1023*k1 10*k3 4 - 33*k1 8*k2 6 + 411*k1 8*k2 4*k3 2 + 389*k1 8*k2 2*k3 4 + 33*k1 8*k3 6)*q 2 + (-(5622*k1 12) + 21648*k1 10*k2 2 +
    5478*k1 10*k3 2 - 20250*k1 8*k2 4 + 3772*k1 8*k2 2*k3 2 + 78*k1 8*k3 4 + 3216*k1 6*k2 6 - 5814*k1 6*k2 4*k3 2 + 1556*k1 6*k2 2*k3 4 +
    642*k1 6*k3 6)*q 4 + (5106*k1 10 - 21930*k1 8*k2 2 - 4418*k1 8*k3 2 + 21858*k1 6*k2 4 - 10824*k1 6*k2 2*k3 2 - 362*k1 6*k3 4 - 4530*k1
    4*k2 6 + 8358*k1 4*k2 4*k3 2 - 3214*k1 4*k2 2*k3 4 - 614*k1 4*k3 6)*q 6 + (-(1251*k1 8) + 8226*k1 6*k2 2 + 1923*k1 6*k3 2 - 8979*k1 4*k2
    4 + 7004*k1 4*k2 2*k3 2 - 597*k1 4*k3 4 + 2004*k1 2*k2 6 - 4083*k1 2*k2 4*k3 2 + 2154*k1 2*k2 2*k3 4 - 75*k1 2*k3 6)*q 8 + (-(219*k1 6)
    - 471*k1 4*k2 2 - 405*k1 4*k3 2 + 855*k1 2*k2 4 - 1314*k1 2*k2 2*k3 2 + 459*k1 2*k3 4 - 165*k2 6 + 495*k2 4*k3 2 - 495*k2 2*k3 4 +
    165*k3 6)*q 10)/(413952*k1 9*k2 2*q 5)

/-- Coefficient of `LFunc(k2,q)` in `kernel_gamma2d_exact` (`src/gamma2d_1loop.c:10-132`), without the factor `π`. -/
def g2dCL2 (k1 k2 k3 q : ℕ → ℝ) : ℝ :=
  ((-(492*k1 6*k2 10) - 51*k1 4*k2 12 + 633*k1 4*k2 10*k3 2 + 582*k1 2*k2 14 - 2120*k1 2*k2 12*k3 2 - 390*k1 2*k2 10*k3 4 - 39*k2 16 +
    791*k2 14*k3 2 - 601*k2 12*k3 4 - 151*k2 10*k3 6) + (-(33*k1 6*k2 8) + 6567*k1 4*k2 10 + 411*k1 4*k2 8*k3 2 - 8055*k1 2*k2 12 + 3482*k1
    2*k2 10*k3 2 + 389*k1 2*k2 8*k3 4 + 2025*k2 14 - 3369*k2 12*k3 2 + 1023*k2 10*k3 4 + 33*k2 8*k3 6)*q 2 + (3216*k1 6*k2 6 - 20250*k1 4*k2
    8 - 5814*k1 4*k2 6*k3 2 + 21648*k1 2*k2 10 + 3772*k1 2*k2 8*k3 2 + 1556*k1 2*k2 6*k3 4 - 5622*k2 12 + 5478*k2 10*k3 2 + 78*k2 8*k3 4 +
    642*k2 6*k3 6)*q 4 + (-(4530*k1 6*k2 4) + 21858*k1 4*k2 6 + 8358*k1 4*k2 4*k3 2 - 21930*k1 2*k2 8 - 10824*k1 2*k2 6*k3 2 - 3214*k1 2*k2
    4*k3 4 + 5106*k2 10 - 4418*k2 8*k3 2 - 362*k2 6*k3 4 - 614*k2 4*k3 6)*q 6 + (2004*k1 6*k2 2 - 8979*k1 4*k2 4 - 4083*k1 4*k2 2*k3 2 +
    8226*k1 2*k2 6 + 7004*k1 2*k2 4*k3 2 + 2154*k1 2*k2 2*k3 4 - 1251*k2 8 + 1923*k2 6*k3 2 - 597*k2 4*k3 4 - 75*k2 2*k3 6)*q 8 + (-(165*k1
    6) + 855*k1 4*k2 2 + 495*k1 4*k3 2 - 471*k1 2*k2 4 - 1314*k1 2*k2 2*k3 2 - 495*k1 2*k3 4 - 219*k2 6 - 405*k2 4*k3 2 + 459*k2 2*k3 4 +
    165*k3 6)*q 10)/(413952*k1 2*k2 9*q 5)

/-- Coefficient of `LFunc(k3,q)` in `kernel_gamma2d_exact` (`src/gamma2d_1loop.c:10-132`), without the factor `π`. -/
def g2dCL3 (k1 k2 k3 q : ℕ → ℝ) : ℝ :=
  ((2*k1 6*k3 8 - 18*k1 4*k2 2*k3 8 + 32*k1 4*k3 10 - 18*k1 2*k2 4*k3 8 - 64*k1 2*k2 2*k3 10 - 30*k1 2*k3 12 + 2*k2 6*k3 8 + 32*k2 4*k3 10
    - 30*k2 2*k3 12 - 4*k3 14) + (11*k1 6*k3 6 - 67*k1 4*k2 2*k3 6 - 67*k1 2*k2 4*k3 6 + 48*k1 2*k2 2*k3 8 - 13*k1 2*k3 10 + 11*k2 6*k3 6 -
    13*k2 2*k3 10 - 14*k3 12)*q 2 + (-(k1 6*k3 4) + 73*k1 4*k2 2*k3 4 - 432*k1 4*k3 6 + 73*k1 2*k2 4*k3 4 + 1048*k1 2*k2 2*k3 6 + 363*k1
    2*k3 8 - k2 6*k3 4 - 432*k2 4*k3 6 + 363*k2 2*k3 8 + 14*k3 10)*q 4 + (-(39*k1 6*k3 2) + 39*k1 4*k2 2*k3 2 + 844*k1 4*k3 4 + 39*k1 2*k2
    4*k3 2 - 1848*k1 2*k2 2*k3 4 - 727*k1 2*k3 6 - 39*k2 6*k3 2 + 844*k2 4*k3 4 - 727*k2 2*k3 6 - 6*k3 8)*q 6 + (27*k1 6 - 27*k1 4*k2 2 -
    552*k1 4*k3 2 - 27*k1 2*k2 4 + 1032*k1 2*k2 2*k3 2 + 479*k1 2*k3 4 + 27*k2 6 - 552*k2 4*k3 2 + 479*k2 2*k3 4 + 46*k3 6)*q 8 + (108*k1 4
    - 216*k1 2*k2 2 - 72*k1 2*k3 2 + 108*k2 4 - 72*k2 2*k3 2 - 36*k3 4)*q 10)/(59136*k1 2*k2 2*k3 5*q 5)

/-- Coefficient of `WFunc(k1,k2,k3,q)` over its square root in `kernel_gamma2d_exact` (`src/gamma2d_1loop.c:10-132`), without the factor `π`. -/
def g2dCW1 (k1 k2 k3 q : ℕ → ℝ) : ℝ :=
  ((3*k1 4*k2 4*k3 3) + (-(6*k1 4*k2 2*k3 3) - 6*k1 2*k2 4*k3 3)*q 2 + (3*k1 4*k3 3 + 12*k1 2*k2 2*k3 3 + 3*k2 4*k3 3)*q 4 + (-(6*k1 2*k3
    3) - 6*k2 2*k3 3)*q 6 + (3*k3 3)*q 8)/(4312*k1 2*k2 2*q 5)

/-- Coefficient of `WFunc(k1,k3,k2,q)` over its square root in `kernel_gamma2d_exact` (`src/gamma2d_1loop.c:10-132`), without the factor `π`. -/
def g2dCW2 (k1 k2 k3 q : ℕ → ℝ) : ℝ :=
  ((2*k1 4*k2 1*k3 4) + (7*k1 4*k2 1*k3 2 - 4*k1 2*k2 1*k3 4)*q 2 + (-(9*k1 4*k2 1) - 14*k1 2*k2 1*k3 2 + 2*k2 1*k3 4)*q 4 + (18*k1 2*k2 1
    + 7*k2 1*k3 2)*q 6 + (-(9*k2 1))*q 8)/(7392*k1 2*q 5)

/-- Coefficient of `WFunc(k2,k3,k1,q)` over its square root in `kernel_gamma2d_exact` (`src/gamma2d_1loop.c:10-132`), without the factor `π`. -/
def g2dCW3 (k1 k2 k3 q : ℕ → ℝ) : ℝ :=
  ((2*k1 1*k2 4*k3 4) + (7*k1 1*k2 4*k3 2 - 4*k1 1*k2 2*k3 4)*q 2 + (-(9*k1 1*k2 4) - 14*k1 1*k2 2*k3 2 + 2*k1 1*k3 4)*q 4 + (18*k1 1*k2 2
    + 7*k1 1*k3 2)*q 6 + (-(9*k1 1))*q 8)/(7392*k2 2*q 5)

/-- The part of `kernel_gamma2t_exact` without logarithms (`src/gamma2t_1loop.c:10-117`), without the factor `π`. -/
def g2tC0 (k1 k2 k3 q : ℕ → ℝ) : ℝ :=
  ((195*k1 14*k2 6*k3 4 - 450*k1 12*k2 8*k3 4 - 29655*k1 12*k2 6*k3 6 + 510*k1 10*k2 10*k3 4 + 30495*k1 10*k2 8*k3 6 + 10245*k1 10*k2 6*k3
    8 - 450*k1 8*k2 12*k3 4 + 30495*k1 8*k2 10*k3 6 + 18780*k1 8*k2 8*k3 8 + 17535*k1 8*k2 6*k3 10 + 195*k1 6*k2 14*k3 4 - 29655*k1 6*k2
    12*k3 6 + 10245*k1 6*k2 10*k3 8 + 17535*k1 6*k2 8*k3 10 + 1680*k1 6*k2 6*k3 12) + (-(6030*k1 12*k2 6*k3 4) + 3510*k1 10*k2 8*k3 4 +
    245070*k1 10*k2 6*k3 6 + 3510*k1 8*k2 10*k3 4 - 505060*k1 8*k2 8*k3 6 - 81190*k1 8*k2 6*k3 8 - 6030*k1 6*k2 12*k3 4 + 245070*k1 6*k2
    10*k3 6 - 81190*k1 6*k2 8*k3 8 - 133850*k1 6*k2 6*k3 10)*q 2 + (-(1260*k1 12*k2 6*k3 2) + 19475*k1 12*k2 4*k3 4 + 1260*k1 10*k2 8*k3 2 -
    93542*k1 10*k2 6*k3 4 - 1380*k1 10*k2 4*k3 6 + 1260*k1 8*k2 10*k3 2 + 160734*k1 8*k2 8*k3 4 - 3892*k1 8*k2 6*k3 6 - 50385*k1 8*k2 4*k3 8
    - 1260*k1 6*k2 12*k3 2 - 93542*k1 6*k2 10*k3 4 - 3892*k1 6*k2 8*k3 6 - 92816*k1 6*k2 6*k3 8 + 32290*k1 6*k2 4*k3 10 + 19475*k1 4*k2
    12*k3 4 - 1380*k1 4*k2 10*k3 6 - 50385*k1 4*k2 8*k3 8 + 32290*k1 4*k2 6*k3 10)*q 4 + (-(945*k1 12*k2 6) - 9745*k1 12*k2 2*k3 4 + 945*k1
    10*k2 8 + 8820*k1 10*k2 6*k3 2 + 43470*k1 10*k2 4*k3 4 + 7050*k1 10*k2 2*k3 6 + 945*k1 8*k2 10 - 15120*k1 8*k2 8*k3 2 - 43490*k1 8*k2
    6*k3 4 - 22710*k1 8*k2 4*k3 6 + 15135*k1 8*k2 2*k3 8 - 945*k1 6*k2 12 + 8820*k1 6*k2 10*k3 2 - 43490*k1 6*k2 8*k3 4 - 4110*k1 6*k2 6*k3
    6 + 8820*k1 6*k2 4*k3 8 - 12440*k1 6*k2 2*k3 10 + 43470*k1 4*k2 10*k3 4 - 22710*k1 4*k2 8*k3 6 + 8820*k1 4*k2 6*k3 8 - 9745*k1 2*k2
    12*k3 4 + 7050*k1 2*k2 10*k3 6 + 15135*k1 2*k2 8*k3 8 - 12440*k1 2*k2 6*k3 10)*q 6 + (825*k1 12*k3 4 - 3780*k1 10*k2 6 - 4275*k1 10*k2
    2*k3 4 - 2475*k1 10*k3 6 + 7560*k1 8*k2 8 + 2520*k1 8*k2 6*k3 2 + 2355*k1 8*k2 4*k3 4 + 6570*k1 8*k2 2*k3 6 + 2475*k1 8*k3 8 - 3780*k1
    6*k2 10 + 2520*k1 6*k2 8*k3 2 + 3450*k1 6*k2 6*k3 4 + 2025*k1 6*k2 4*k3 6 - 2295*k1 6*k2 2*k3 8 - 825*k1 6*k3 10 + 2355*k1 4*k2 8*k3 4 +
    2025*k1 4*k2 6*k3 6 - 4275*k1 2*k2 10*k3 4 + 6570*k1 2*k2 8*k3 6 - 2295*k1 2*k2 6*k3 8 + 825*k2 12*k3 4 - 2475*k2 10*k3 6 + 2475*k2 8*k3
    8 - 825*k2 6*k3 10)*q 8)/(1552320*k1 8*k2 8*k3 4*q 4)

/-- Coefficient of `LFunc(k1,q)` in `kernel_gamma2t_exact` (`src/gamma2t_1loop.c:10-117`), without the factor `π`. -/
def g2tCL1 (k1 k2 k3 q : ℕ → ℝ) : ℝ :=
  ((-(13*k1 16) + 194*k1 14*k2 2 + 1921*k1 14*k3 2 - 17*k1 12*k2 4 - 1176*k1 12*k2 2*k3 2 - 1579*k1 12*k3 4 - 164*k1 10*k2 6 - 801*k1
    10*k2 4*k3 2 - 306*k1 10*k2 2*k3 4 - 329*k1 10*k3 6) + (675*k1 14 - 2685*k1 12*k2 2 - 6755*k1 12*k3 2 + 2189*k1 10*k2 4 + 5766*k1 10*k2
    2*k3 2 + 4917*k1 10*k3 4 - 11*k1 8*k2 6 + 1281*k1 8*k2 4*k3 2 + 1919*k1 8*k2 2*k3 4 + 11*k1 8*k3 6)*q 2 + (-(1874*k1 12) + 7216*k1 10*k2
    2 + 7722*k1 10*k3 2 - 6750*k1 8*k2 4 - 7220*k1 8*k2 2*k3 2 - 5430*k1 8*k3 4 + 1072*k1 6*k2 6 - 354*k1 6*k2 4*k3 2 - 4204*k1 6*k2 2*k3 4
    + 1886*k1 6*k3 6)*q 4 + (1702*k1 10 - 7310*k1 8*k2 2 - 2998*k1 8*k3 2 + 7286*k1 6*k2 4 + 1408*k1 6*k2 2*k3 2 + 2578*k1 6*k3 4 - 1510*k1
    4*k2 6 + 234*k1 4*k2 4*k3 2 + 3710*k1 4*k2 2*k3 4 - 2434*k1 4*k3 6)*q 6 + (-(417*k1 8) + 2742*k1 6*k2 2 + 245*k1 6*k3 2 - 2993*k1 4*k2 4
    + 1660*k1 4*k2 2*k3 2 - 639*k1 4*k3 4 + 668*k1 2*k2 6 - 525*k1 2*k2 4*k3 2 - 954*k1 2*k2 2*k3 4 + 811*k1 2*k3 6)*q 8 + (-(73*k1 6) -
    157*k1 4*k2 2 - 135*k1 4*k3 2 + 285*k1 2*k2 4 - 438*k1 2*k2 2*k3 2 + 153*k1 2*k3 4 - 55*k2 6 + 165*k2 4*k3 2 - 165*k2 2*k3 4 + 55*k3
    6)*q 10)/(413952*k1 9*k2 2*q 5)

/-- Coefficient of `LFunc(k2,q)` in `kernel_gamma2t_exact` (`src/gamma2t_1loop.c:10-117`), without the factor `π`. -/
def g2tCL2 (k1 k2 k3 q : ℕ → ℝ) : ℝ :=
  ((-(164*k1 6*k2 10) - 17*k1 4*k2 12 - 801*k1 4*k2 10*k3 2 + 194*k1 2*k2 14 - 1176*k1 2*k2 12*k3 2 - 306*k1 2*k2 10*k3 4 - 13*k2 16 +
    1921*k2 14*k3 2 - 1579*k2 12*k3 4 - 329*k2 10*k3 6) + (-(11*k1 6*k2 8) + 2189*k1 4*k2 10 + 1281*k1 4*k2 8*k3 2 - 2685*k1 2*k2 12 +
    5766*k1 2*k2 10*k3 2 + 1919*k1 2*k2 8*k3 4 + 675*k2 14 - 6755*k2 12*k3 2 + 4917*k2 10*k3 4 + 11*k2 8*k3 6)*q 2 + (1072*k1 6*k2 6 -
    6750*k1 4*k2 8 - 354*k1 4*k2 6*k3 2 + 7216*k1 2*k2 10 - 7220*k1 2*k2 8*k3 2 - 4204*k1 2*k2 6*k3 4 - 1874*k2 12 + 7722*k2 10*k3 2 -
    5430*k2 8*k3 4 + 1886*k2 6*k3 6)*q 4 + (-(1510*k1 6*k2 4) + 7286*k1 4*k2 6 + 234*k1 4*k2 4*k3 2 - 7310*k1 2*k2 8 + 1408*k1 2*k2 6*k3 2 +
    3710*k1 2*k2 4*k3 4 + 1702*k2 10 - 2998*k2 8*k3 2 + 2578*k2 6*k3 4 - 2434*k2 4*k3 6)*q 6 + (668*k1 6*k2 2 - 2993*k1 4*k2 4 - 525*k1 4*k2
    2*k3 2 + 2742*k1 2*k2 6 + 1660*k1 2*k2 4*k3 2 - 954*k1 2*k2 2*k3 4 - 417*k2 8 + 245*k2 6*k3 2 - 639*k2 4*k3 4 + 811*k2 2*k3 6)*q 8 +
    (-(55*k1 6) + 285*k1 4*k2 2 + 165*k1 4*k3 2 - 157*k1 2*k2 4 - 438*k1 2*k2 2*k3 2 - 165*k1 2*k3 4 - 73*k2 6 - 135*k2 4*k3 2 + 153*k2 2*k3
    4 + 55*k3 6)*q 10)/(413952*k1 2*k2 9*q 5)

/-- Coefficient of `LFunc(k3,q)` in `kernel_gamma2t_exact` (`src/gamma2t_1loop.c:10-117`), without the factor `π`. -/
def g2tCL3 (k1 k2 k3 q : ℕ → ℝ) : ℝ :=
  ((8*k1 6*k3 8 - 72*k1 4*k2 2*k3 8 + 128*k1 4*k3 10 - 72*k1 2*k2 4*k3 8 - 256*k1 2*k2 2*k3 10 - 120*k1 2*k3 12 + 8*k2 6*k3 8 + 128*k2
    4*k3 10 - 120*k2 2*k3 12 - 16*k3 14) + (11*k1 6*k3 6 + 29*k1 4*k2 2*k3 6 - 528*k1 4*k3 8 + 29*k1 2*k2 4*k3 6 + 1248*k1 2*k2 2*k3 8 +
    443*k1 2*k3 10 + 11*k2 6*k3 6 - 528*k2 4*k3 8 + 443*k2 2*k3 10 + 10*k3 12)*q 2 + (-(37*k1 6*k3 4) + 61*k1 4*k2 2*k3 4 + 648*k1 4*k3 6 +
    61*k1 2*k2 4*k3 4 - 1352*k1 2*k2 2*k3 6 - 561*k1 2*k3 8 - 37*k2 6*k3 4 + 648*k2 4*k3 6 - 561*k2 2*k3 8 - 10*k3 10)*q 4 + (9*k1 6*k3 2 -
    9*k1 4*k2 2*k3 2 - 188*k1 4*k3 4 - 9*k1 2*k2 4*k3 2 + 264*k1 2*k2 2*k3 4 + 161*k1 2*k3 6 + 9*k2 6*k3 2 - 188*k2 4*k3 4 + 161*k2 2*k3 6 +
    42*k3 8)*q 6 + (9*k1 6 - 9*k1 4*k2 2 - 96*k1 4*k3 2 - 9*k1 2*k2 4 + 168*k1 2*k2 2*k3 2 + 101*k1 2*k3 4 + 9*k2 6 - 96*k2 4*k3 2 + 101*k2
    2*k3 4 - 14*k3 6)*q 8 + (36*k1 4 - 72*k1 2*k2 2 - 24*k1 2*k3 2 + 36*k2 4 - 24*k2 2*k3 2 - 12*k3 4)*q 10)/(59136*k1 2*k2 2*k3 5*q 5)

/-- Coefficient of `WFunc(k1,k2,k3,q)` over its square root in `kernel_gamma2t_exact` (`src/gamma2t_1loop.c:10-117`), without the factor `π`. -/
def g2tCW1 (k1 k2 k3 q : ℕ → ℝ) : ℝ :=
  ((3*k1 4*k2 4*k3 3) + (-(6*k1 4*k2 2*k3 3) - 6*k1 2*k2 4*k3 3)*q 2 + (3*k1 4*k3 3 + 12*k1 2*k2 2*k3 3 + 3*k2 4*k3 3)*q 4 + (-(6*k1 2*k3
    3) - 6*k2 2*k3 3)*q 6 + (3*k3 3)*q 8)/(1078*k1 2*k2 2*q 5)

/-- Coefficient of `WFunc(k1,k3,k2,q)` over its square root in `kernel_gamma2t_exact` (`src/gamma2t_1loop.c:10-117`), without the factor `π`. -/
def g2tCW2 (k1 k2 k3 q : ℕ → ℝ) : ℝ :=
  ((8*k1 4*k2 1*k3 4) + (-(5*k1 4*k2 1*k3 2) - 16*k1 2*k2 1*k3 4)*q 2 + (-(3*k1 4*k2 1) + 10*k1 2*k2 1*k3 2 + 8*k2 1*k3 4)*q 4 + (6*k1
    2*k2 1 - 5*k2 1*k3 2)*q 6 + (-(3*k2 1))*q 8)/(7392*k1 2*q 5)

/-- Coefficient of `WFunc(k2,k3,k1,q)` over its square root in `kernel_gamma2t_exact` (`src/gamma2t_1loop.c:10-117`), without the factor `π`. -/
def g2tCW3 (k1 k2 k3 q : ℕ → ℝ) : ℝ :=
  ((8*k1 1*k2 4*k3 4) + (-(5*k1 1*k2 4*k3 2) - 16*k1 1*k2 2*k3 4)*q 2 + (-(3*k1 1*k2 4) + 10*k1 1*k2 2*k3 2 + 8*k1 1*k3 4)*q 4 + (6*k1
    1*k2 2 - 5*k1 1*k3 2)*q 6 + (-(3*k1 1))*q 8)/(7392*k2 2*q 5)

theorem WFunc_triLog (a b c q : ℝ) (h : Triangle a b c) (hq : 0 < q) (ha : q ≠ a) (hb : q ≠ b) (m : ℝ) (hm : m = triM a b c q) :
    WFunc a b c q / Real.sqrt m = triLog (c * q) (triM a b c q) := by
  obtain ⟨-, s, s0, s1, -, s3⟩ := C19_WFunc a b c q h hq ha hb
  have hs : Real.sqrt (triM a b c q) = s := by
    rw [triM, ← s1, Real.sqrt_sq s0.le]
  rw [hm, triLog, hs, s3]

/-- The exact kernel as a linear form. -/
theorem g2dExact_form (k1 k2 k3 q : ℝ) (h : Triangle k1 k2 k3) (hq : 0 < q) (n1 : q ≠ k1) (n2 : q ≠ k2) (n3 : q ≠ k3) :
    g2dExact k1 k2 k3 q = π * (g2dC0 (pw k1) (pw k2) (pw k3) (pw q) + g2dCL1 (pw k1) (pw k2) (pw k3) (pw q) * LFunc k1 q +
      g2dCL2 (pw k1) (pw k2) (pw k3) (pw q) * LFunc k2 q + g2dCL3 (pw k1) (pw k2) (pw k3) (pw q) * LFunc k3 q +
      g2dCW1 (pw k1) (pw k2) (pw k3) (pw q) * triLog (k3 * q) (triM k1 k2 k3 q) +
      g2dCW2 (pw k1) (pw k2) (pw k3) (pw q) * triLog (k2 * q) (triM k1 k3 k2 q) +
      g2dCW3 (pw k1) (pw k2) (pw k3) (pw q) * triLog (k1 * q) (triM k2 k3 k1 q)) := by
  have h1 := h.pos1.ne'
  have h2 := h.pos2.ne'
  have h3 := h.pos3.ne'
  have hq0 := hq.ne'
  have w1 := WFunc_triLog k1 k2 k3 q h hq n1 n2 (k1 ^ 2 * k2 ^ 2 - (k1 ^ 2 + k2 ^ 2 - k3 ^ 2) * q ^ 2 + q ^ 4) (by unfold triM; ring)
  have w2 := WFunc_triLog k1 k3 k2 q ⟨h.pos1, h.pos3, h.pos2, by linarith [h.lt1], by linarith [h.lt3], by linarith [h.lt2]⟩ hq n1 n3
    (k1 ^ 2 * k3 ^ 2 - (k1 ^ 2 - k2 ^ 2 + k3 ^ 2) * q ^ 2 + q ^ 4) (by unfold triM; ring)
  have w3 := WFunc_triLog k2 k3 k1 q ⟨h.pos2, h.pos3, h.pos1, by linarith [h.lt2], by linarith [h.lt3], by linarith [h.lt1]⟩ hq n2 n3
    (k1 ^ 2 * q ^ 2 + (k2 - q) * (k3 - q) * (k2 + q) * (k3 + q)) (by unfold triM; ring)
  rw [← w1, ← w2, ← w3]
  have e1 : g2dExact1 (pw k1) (pw k2) (pw k3) (pw q) = π * g2dC0 (pw k1) (pw k2) (pw k3) (pw q) := by
    simp only [g2dExact1, g2dC0, pw]; field_simp; ring
  have e2 : g2dExact2 (pw k1) (pw k2) (pw k3) (pw q) = π * (g2dCL1 (pw k1) (pw k2) (pw k3) (pw q) * LFunc k1 q) := by
    simp only [g2dExact2, g2dCL1, pw, pow_one, C01_power]; generalize LFunc k1 q = l; field_simp; ring
  have e3 : g2dExact3 (pw k1) (pw k2) (pw k3) (pw q) = π * (g2dCL2 (pw k1) (pw k2) (pw k3) (pw q) * LFunc k2 q) := by
    simp only [g2dExact3, g2dCL2, pw, pow_one, C01_power]; generalize LFunc k2 q = l; field_simp; ring
  have e4 : g2dExact4 (pw k1) (pw k2) (pw k3) (pw q) = π * (g2dCL3 (pw k1) (pw k2) (pw k3) (pw q) * LFunc k3 q) := by
    simp only [g2dExact4, g2dCL3, pw, pow_one, C01_power]; generalize LFunc k3 q = l; field_simp; ring
  have e5 : g2dExact5 (pw k1) (pw k2) (pw k3) (pw q) = π * (g2dCW1 (pw k1) (pw k2) (pw k3) (pw q) * (WFunc k1 k2 k3 q /
      Real.sqrt (k1 ^ 2 * k2 ^ 2 - (k1 ^ 2 + k2 ^ 2 - k3 ^ 2) * q ^ 2 + q ^ 4)) +
      g2dCW2 (pw k1) (pw k2) (pw k3) (pw q) * (WFunc k1 k3 k2 q / Real.sqrt (k1 ^ 2 * k3 ^ 2 - (k1 ^ 2 - k2 ^ 2 + k3 ^ 2) * q ^ 2 + q ^ 4)) +
      g2dCW3 (pw k1) (pw k2) (pw k3) (pw q) * (WFunc k2 k3 k1 q / Real.sqrt (k1 ^ 2 * q ^ 2 + (k2 - q) * (k3 - q) * (k2 + q) * (k3 + q)))) := by
    simp only [g2dExact5, g2dCW1, g2dCW2, g2dCW3, pw, pow_one]
    generalize Real.sqrt (k1 ^ 2 * k2 ^ 2 - (k1 ^ 2 + k2 ^ 2 - k3 ^ 2) * q ^ 2 + q ^ 4) = s1
    generalize Real.sqrt (k1 ^ 2 * k3 ^ 2 - (k1 ^ 2 - k2 ^ 2 + k3 ^ 2) * q ^ 2 + q ^ 4) = s2
    generalize Real.sqrt (k1 ^ 2 * q ^ 2 + (k2 - q) * (k3 - q) * (k2 + q) * (k3 + q)) = s3
    ring
  rw [g2dExact, e1, e2, e3, e4]
  linear_combination e5

/-- The exact kernel as a linear form. -/
theorem g2tExact_form (k1 k2 k3 q : ℝ) (h : Triangle k1 k2 k3) (hq : 0 < q) (n1 : q ≠ k1) (n2 : q ≠ k2) (n3 : q ≠ k3) :
    g2tExact k1 k2 k3 q = π * (g2tC0 (pw k1) (pw k2) (pw k3) (pw q) + g2tCL1 (pw k1) (pw k2) (pw k3) (pw q) * LFunc k1 q +
      g2tCL2 (pw k1) (pw k2) (pw k3) (pw q) * LFunc k2 q + g2tCL3 (pw k1) (pw k2) (pw k3) (pw q) * LFunc k3 q +
      g2tCW1 (pw k1) (pw k2) (pw k3) (pw q) * triLog (k3 * q) (triM k1 k2 k3 q) +
      g2tCW2 (pw k1) (pw k2) (pw k3) (pw q) * triLog (k2 * q) (triM k1 k3 k2 q) +
      g2tCW3 (pw k1) (pw k2) (pw k3) (pw q) * triLog (k1 * q) (triM k2 k3 k1 q)) := by
  have h1 := h.pos1.ne'
  have h2 := h.pos2.ne'
  have h3 := h.pos3.ne'
  have hq0 := hq.ne'
  have w1 := WFunc_triLog k1 k2 k3 q h hq n1 n2 (k1 ^ 2 * k2 ^ 2 - (k1 ^ 2 + k2 ^ 2 - k3 ^ 2) * q ^ 2 + q ^ 4) (by unfold triM; ring)
  have w2 := WFunc_triLog k1 k3 k2 q ⟨h.pos1, h.pos3, h.pos2, by linarith [h.lt1], by linarith [h.lt3], by linarith [h.lt2]⟩ hq n1 n3
    (k1 ^ 2 * k3 ^ 2 - (k1 ^ 2 - k2 ^ 2 + k3 ^ 2) * q ^ 2 + q ^ 4) (by unfold triM; ring)
  have w3 := WFunc_triLog k2 k3 k1 q ⟨h.pos2, h.pos3, h.pos1, by linarith [h.lt2], by linarith [h.lt3], by linarith [h.lt1]⟩ hq n2 n3
    (k1 ^ 2 * q ^ 2 + (k2 - q) * (k3 - q) * (k2 + q) * (k3 + q)) (by unfold triM; ring)
  rw [← w1, ← w2, ← w3]
  have e1 : g2tExact1 (pw k1) (pw k2) (pw k3) (pw q) = π * g2tC0 (pw k1) (pw k2) (pw k3) (pw q) := by
    simp only [g2tExact1, g2tC0, pw]; field_simp; ring
  have e2 : g2tExact2 (pw k1) (pw k2) (pw k3) (pw q) = π * (g2tCL1 (pw k1) (pw k2) (pw k3) (pw q) * LFunc k1 q) := by
    simp only [g2tExact2, g2tCL1, pw, pow_one, C01_power]; generalize LFunc k1 q = l; field_simp; ring
  have e3 : g2tExact3 (pw k1) (pw k2) (pw k3) (pw q) = π * (g2tCL2 (pw k1) (pw k2) (pw k3) (pw q) * LFunc k2 q) := by
    simp only [g2tExact3, g2tCL2, pw, pow_one, C01_power]; generalize LFunc k2 q = l; field_simp; ring
  have e4 : g2tExact4 (pw k1) (pw k2) (pw k3) (pw q) = π * (g2tCL3 (pw k1) (pw k2) (pw k3) (pw q) * LFunc k3 q) := by
    simp only [g2tExact4, g2tCL3, pw, pow_one, C01_power]; generalize LFunc k3 q = l; field_simp; ring
  have e5 : g2tExact5 (pw k1) (pw k2) (pw k3) (pw q) + g2tExact6 (pw k1) (pw k2) (pw k3) (pw q) = π * (g2tCW1 (pw k1) (pw k2) (pw k3) (pw q) * (WFunc k1 k2 k3 q /
      Real.sqrt (k1 ^ 2 * k2 ^ 2 - (k1 ^ 2 + k2 ^ 2 - k3 ^ 2) * q ^ 2 + q ^ 4)) +
      g2tCW2 (pw k1) (pw k2) (pw k3) (pw q) * (WFunc k1 k3 k2 q / Real.sqrt (k1 ^ 2 * k3 ^ 2 - (k1 ^ 2 - k2 ^ 2 + k3 ^ 2) * q ^ 2 + q ^ 4)) +
      g2tCW3 (pw k1) (pw k2) (pw k3) (pw q) * (WFunc k2 k3 k1 q / Real.sqrt (k1 ^ 2 * q ^ 2 + (k2 - q) * (k3 - q) * (k2 + q) * (k3 + q)))) := by
    simp only [g2tExact5, g2tExact6, g2tCW1, g2tCW2, g2tCW3, pw, pow_one]
    generalize Real.sqrt (k1 ^ 2 * k2 ^ 2 - (k1 ^ 2 + k2 ^ 2 - k3 ^ 2) * q ^ 2 + q ^ 4) = s1
    generalize Real.sqrt (k1 ^ 2 * k3 ^ 2 - (k1 ^ 2 - k2 ^ 2 + k3 ^ 2) * q ^ 2 + q ^ 4) = s2
    generalize Real.sqrt (k1 ^ 2 * q ^ 2 + (k2 - q) * (k3 - q) * (k2 + q) * (k3 + q)) = s3
    ring
  rw [g2tExact, e1, e2, e3, e4]
  linear_combination e5

end

end Verif
