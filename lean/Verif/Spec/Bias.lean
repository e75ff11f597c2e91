import Verif.Spec.SPT

/-!
# Specification: one-loop local and tidal bias

The integrands over the wavevector `q` of the bias corrections, as in McDonald & Roy 2009 (eqs. 25 ff.) and Beutler et al. 2014,
as functions of the vectors `k` and `q` and of the linear spectrum `P`.
-/

namespace Verif

noncomputable section

/-- Modulus. -/
def Vec.modulus (p : Vec) : ℝ := Real.sqrt (p.dot p)

/-- Cosine of the angle between two wavevectors. -/
def Vec.cosine (p q : Vec) : ℝ := p.dot q / (p.modulus * q.modulus)

/-- Tidal kernel `S2(q1,q2)`. -/
def specS2 (p q : Vec) : ℝ := p.cosine q ^ 2 - 1 / 3

/-- Kernel `D2(q1,q2) = 2/7 (S2 - 2/3)`, that is `-2/7` times the squared sine. -/
def specD2 (p q : Vec) : ℝ := -(2 / 7) * (1 - p.cosine q ^ 2)

/-- The eight integrands. -/
inductive BiasTerm
  | b2 | bs2 | b22 | b2s2 | bs22 | sigma3sq

/-- Integrand of a bias term at wavenumber `k` and integration variable `q`. -/
def specBias (P : ℝ → ℝ) (a : Field) (k q : Vec) : BiasTerm → ℝ
  | .b2 => P q.modulus * P (k - q).modulus * sptSym2 a q (k - q)
  | .bs2 => P q.modulus * P (k - q).modulus * sptSym2 a q (k - q) * specS2 q (k - q)
  | .b22 => -(1 / 2) * P q.modulus * (P q.modulus - P (k - q).modulus)
  | .b2s2 => -(1 / 2) * P q.modulus * (2 / 3 * P q.modulus - P (k - q).modulus * specS2 q (k - q))
  | .bs22 => -(1 / 2) * P q.modulus * (4 / 9 * P q.modulus - P (k - q).modulus * specS2 q (k - q) ^ 2)
  | .sigma3sq => 105 / 16 * P q.modulus * (specD2 q k * specS2 q (k - q) + 8 / 63)

end

end Verif
