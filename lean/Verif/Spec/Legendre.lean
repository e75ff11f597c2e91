import Mathlib.Analysis.SpecialFunctions.Integrals.Basic
import Mathlib.Algebra.Polynomial.Eval.Defs
import Mathlib.Topology.Algebra.Polynomial

/-!
# Specification of Legendre polynomials

By orthogonality and normalisation, without any recurrence.
-/

namespace Verif

/-- Integral of a polynomial over `[-1,1]`. -/
noncomputable def integ (p : Polynomial ℝ) : ℝ := ∫ x in (-1 : ℝ)..1, p.eval x

/-- `P` is the Legendre polynomial of degree `n`: of degree `n`, orthogonal on `[-1,1]` to every polynomial of smaller degree,
and 1 at 1. -/
structure IsLegendre (n : ℕ) (P : Polynomial ℝ) : Prop where
  degree : P.degree = n
  one : P.eval 1 = 1
  orthogonal : ∀ q : Polynomial ℝ, q.degree < n → integ (P * q) = 0

end Verif
