import Mathlib.Analysis.SpecialFunctions.Integrals.Basic

/-!
# Specification: azimuthal averages around the output wavevector

Redshift-space corrections in the distant-observer approximation (Taruya, Nishimichi & Saito 2010, eq. 18-20): the wavevector `q`
of direction cosine `mu` with `k` is averaged over its azimuth around `k`, the line of sight having direction cosine `nu` with
`k`.  Lengths are in units of `k`.
-/

namespace Verif

noncomputable section

/-- Average over the azimuth. -/
def azAvg (g : ℝ → ℝ) : ℝ := (∫ phi in (0 : ℝ)..2 * Real.pi, g phi) / (2 * Real.pi)

/-- Cosine between the line of sight and `q`. -/
def losCos (nu mu phi : ℝ) : ℝ := nu * mu + Real.sqrt (1 - nu ^ 2) * Real.sqrt (1 - mu ^ 2) * Real.cos phi

/-- The integrand of the B correction at one wavevector `q` of length `x` (in units of `k`), times `k^2`-independent factors: `qz`,
`rz` are the line-of-sight components of `q` and `k-q`, `x2`, `y2` their squared lengths, `D`, `T` the density-velocity and
velocity-velocity spectra. -/
def losB (nu f x2 y2 qz rz Dq Tq Dr Tr : ℝ) : ℝ :=
  (nu * f) ^ 2 * (qz / x2 * (Dq + f * (qz ^ 2 / x2) * Tq)) * (rz / y2 * (Dr + f * (rz ^ 2 / y2) * Tr))

/-- The integrand of the A correction at one wavevector `p`: cross bispectra of the velocity along `p` with the redshift-space
density along `r = k-p` and along `k`.  `b` holds the bispectra of the fields (velocity at `p`; then density/velocity at `r`; then
density/velocity at `k`) as `b dd, b td, b dt, b tt`. -/
def losA (nu f p2 r2 pz rz : ℝ) (dd td dt tt : ℝ) : ℝ :=
  nu * f * (pz / p2) * (dd + f * (rz ^ 2 / r2) * td + f * nu ^ 2 * dt + f * (rz ^ 2 / r2) * (f * nu ^ 2) * tt)

end

end Verif
