import Verif.Model.Kernels

/-!
# Specification: the recursion of standard perturbation theory

Written from the literature (Goroff et al. 1986), independently of `src/kernels.c`.  Only the vector type is shared.
-/

namespace Verif

noncomputable section

/-- Sum of wavevectors. -/
def vecSum (l : List Vec) : Vec := l.foldr (· + ·) ⟨0, 0, 0⟩

/-- Coupling `alpha(k1,k2) = (k1+k2).k1/k1^2`. -/
def sptAlpha (k1 k2 : Vec) : ℝ := (k1 + k2).dot k1 / k1.dot k1

/-- Coupling `beta(k1,k2) = |k1+k2|^2 k1.k2/(2 k1^2 k2^2)`. -/
def sptBeta (k1 k2 : Vec) : ℝ := (k1 + k2).dot (k1 + k2) * k1.dot k2 / (2 * k1.dot k1 * k2.dot k2)

/-- Unsymmetrised kernels `(F_n, G_n)` of `n` wavevectors; `fuel` bounds the recursion depth (`fuel >= n` suffices). -/
def sptFG : ℕ → List Vec → ℝ × ℝ
  | 0, _ => (0, 0)
  | fuel + 1, l =>
      let n := l.length
      if n = 1 then (1, 1)
      else
        let term (m : ℕ) : ℝ × ℝ :=
          let k1 := vecSum (l.take m)
          let k2 := vecSum (l.drop m)
          let g := (sptFG fuel (l.take m)).2
          let fg := sptFG fuel (l.drop m)
          (g / ((2 * n + 3) * (n - 1)) * ((2 * n + 1) * sptAlpha k1 k2 * fg.1 + 2 * sptBeta k1 k2 * fg.2),
            g / ((2 * n + 3) * (n - 1)) * (3 * sptAlpha k1 k2 * fg.1 + 2 * n * sptBeta k1 k2 * fg.2))
        let terms := (List.range (n - 1)).map fun m => term (m + 1)
        ((terms.map Prod.fst).sum, (terms.map Prod.snd).sum)

/-- The kernel of one field. -/
def sptKernel (a : Field) (l : List Vec) : ℝ :=
  match a with
  | .delta => (sptFG l.length l).1
  | .theta => (sptFG l.length l).2

/-- Second-order kernel, symmetrised. -/
def sptSym2 (a : Field) (p q : Vec) : ℝ := (sptKernel a [p, q] + sptKernel a [q, p]) / 2

/-- Third-order kernel, averaged over the six orderings. -/
def sptSym3 (a : Field) (p q r : Vec) : ℝ :=
  (sptKernel a [p, q, r] + sptKernel a [p, r, q] + sptKernel a [q, p, r] + sptKernel a [q, r, p] + sptKernel a [r, p, q] +
    sptKernel a [r, q, p]) / 6

end

end Verif
