import Mathlib.Analysis.SpecialFunctions.Log.Basic

/-!
# Closed forms of the propagator kernels

One-loop kernels of the density and velocity propagators and the two-loop kernel of the equal-time limit, written as in the
perturbation theory literature: one formula, no branches.
-/

namespace Verif.Spec

noncomputable section

/-- One-loop density propagator kernel. -/
def ffClosed (x : ℝ) : ℝ :=
  (6 / x ^ 2 - 79 + 50 * x ^ 2 - 21 * x ^ 4 + 3 / 4 * (1 / x - x) ^ 3 * (2 + 7 * x ^ 2) * Real.log (|(1 - x) / (1 + x)| ^ 2)) / 504

/-- One-loop velocity propagator kernel. -/
def ggClosed (x : ℝ) : ℝ :=
  (6 / x ^ 2 - 41 + 2 * x ^ 2 - 3 * x ^ 4 + 3 / 4 * (1 / x - x) ^ 3 * (2 + x ^ 2) * Real.log (|(1 - x) / (1 + x)| ^ 2)) / 168

/-- Two-loop density kernel in the ratio variable `y=|q1-q2|/(q1+q2)`. -/
def betaDelta (y : ℝ) : ℝ :=
  2 * (1 + y ^ 2) * (-11191 + 118054 * y ^ 2 - 18215 * y ^ 4 + 18215 * y ^ 8 - 118054 * y ^ 10 + 11191 * y ^ 12
    + 60 * y ^ 4 * (3467 - 790 * y ^ 2 + 3467 * y ^ 4) * Real.log (y ^ 2)) / (429975 * (y ^ 2 - 1) ^ 7)

/-- Two-loop velocity kernel in the ratio variable `y=|q1-q2|/(q1+q2)`. -/
def betaTheta (y : ℝ) : ℝ :=
  2 * (1 + y ^ 2) * (-54373 + 562162 * y ^ 2 - 408245 * y ^ 4 + 408245 * y ^ 8 - 562162 * y ^ 10 + 54373 * y ^ 12
    + 60 * y ^ 4 * (14561 - 10690 * y ^ 2 + 14561 * y ^ 4) * Real.log (y ^ 2)) / (4729725 * (y ^ 2 - 1) ^ 7)

end

end Verif.Spec
