import Verif.Props.ThirdOrder

/-!
# Specification: the A and B corrections as loop integrals

Taruya, Nishimichi & Saito 2010, eq. (18)-(20), in the distant-observer approximation.  `n` is the unit vector along the line of sight,
`f` the growth rate, `D` and `T` are the density-velocity and velocity-velocity spectra.
-/

namespace Verif

noncomputable section

/-- The factor attached to one wavevector: line-of-sight velocity times the redshift-space density it is correlated with. -/
def losFlow (n : E3) (f : ℝ) (D T : ℝ → ℝ) (p : E3) : ℝ :=
  inner ℝ n p / ‖p‖ ^ 2 * (D ‖p‖ + f * (inner ℝ n p ^ 2 / ‖p‖ ^ 2) * T ‖p‖)

/-- The B correction at `k` from the wavevectors in `S`. -/
def correctionB (n : E3) (f : ℝ) (D T : ℝ → ℝ) (k : E3) (S : Set E3) : ℝ :=
  (f * inner ℝ n k) ^ 2 * (1 / (2 * Real.pi) ^ 3 * ∫ p in S, losFlow n f D T p * losFlow n f D T (k - p))

/-- Tree-level bispectrum of the fields `a`, `b`, `c` at wavevectors `p`, `r`, `s` that add up to zero; `P1`, `P2`, `P3` are the linear
spectra there. -/
def treeCross (a b c : Field) (p r s : E3) (P1 P2 P3 : ℝ) : ℝ :=
  2 * (sptSym2 a (toVec r) (toVec s) * P2 * P3 + sptSym2 b (toVec p) (toVec s) * P1 * P3 + sptSym2 c (toVec p) (toVec r) * P1 * P2)

/-- Squared cosine between `v` and the line of sight. -/
def losSq (n v : E3) : ℝ := inner ℝ n v ^ 2 / ‖v‖ ^ 2

/-- Cross bispectrum of the velocity at `p` with the redshift-space densities at `r` and `s`. -/
def losCross (n : E3) (f : ℝ) (p r s : E3) (P1 P2 P3 : ℝ) : ℝ :=
  treeCross .theta .delta .delta p r s P1 P2 P3 + f * losSq n r * treeCross .theta .theta .delta p r s P1 P2 P3
    + f * losSq n s * treeCross .theta .delta .theta p r s P1 P2 P3
    + f * losSq n r * (f * losSq n s) * treeCross .theta .theta .theta p r s P1 P2 P3

/-- The integrand of the A correction at the pair `p`, `k-p`: line-of-sight velocity at one of them, redshift-space densities at the other
one and at `-k`.  `Pk`, `Pp`, `Pr` are the linear spectra at `k`, `p`, `k-p`. -/
def integrandA (n : E3) (f : ℝ) (k p : E3) (Pk Pp Pr : ℝ) : ℝ :=
  inner ℝ n p / ‖p‖ ^ 2 * losCross n f p (k - p) (-k) Pp Pr Pk + inner ℝ n (k - p) / ‖k - p‖ ^ 2 * losCross n f (k - p) p (-k) Pr Pp Pk

/-- The A correction at `k` from the wavevectors in `S`, for the tree-level bispectra of the spectrum `P`. -/
def correctionA (n : E3) (f : ℝ) (P : ℝ → ℝ) (k : E3) (S : Set E3) : ℝ :=
  f * inner ℝ n k * (1 / (2 * Real.pi) ^ 3 * ∫ p in S, integrandA n f k p (P ‖k‖) (P ‖p‖) (P ‖k - p‖))

/-- The part of the A correction proportional to the spectra at `k` and at `p`. -/
def correctionAkp (n : E3) (f : ℝ) (P : ℝ → ℝ) (k : E3) (S : Set E3) : ℝ :=
  f * inner ℝ n k * (1 / (2 * Real.pi) ^ 3 * ∫ p in S, integrandA n f k p (P ‖k‖) (P ‖p‖) 0)

end

end Verif
