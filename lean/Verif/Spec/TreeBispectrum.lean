import Verif.Model.Terms

/-!
# Specification: tree-level bispectrum
-/

namespace Verif

noncomputable section

/-- Tree-level bispectrum of three fields at the sides of a triangle: twice the sum over the leg carrying the second-order kernel.
Written with the second-order kernel of `C17` (`gamma2Tree a k1 k2 k3` is the symmetrised second-order kernel of field `a` at two
wavevectors of lengths `k1`, `k2` adding up to length `k3`, `C17_gamma2_tree`). -/
def treeBi (a b c : Field) (k1 k2 k3 P1 P2 P3 : ℝ) : ℝ :=
  2 * (gamma2Tree a k2 k3 k1 * P2 * P3 + gamma2Tree b k1 k3 k2 * P1 * P3 + gamma2Tree c k1 k2 k3 * P1 * P2)

/-- The eight tree-level bispectra entering the A correction: velocity at the first leg (`q` for A, `|k-q|` for tA). -/
def treeOut (k q r Pk Pq Pr : ℝ) : BiOut where
  a := ![treeBi .theta .delta .delta q r k Pq Pr Pk, treeBi .theta .theta .delta q r k Pq Pr Pk,
    treeBi .theta .delta .theta q r k Pq Pr Pk, treeBi .theta .theta .theta q r k Pq Pr Pk]
  t := ![treeBi .theta .delta .delta r q k Pr Pq Pk, treeBi .theta .theta .delta r q k Pr Pq Pk,
    treeBi .theta .delta .theta r q k Pr Pq Pk, treeBi .theta .theta .theta r q k Pr Pq Pk]

end

end Verif
