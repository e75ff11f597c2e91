import Verif.Model.Common

/-! The whole call of `nodes_weights_gauss_legendre`, root searches included (`nodesWeights` takes their outcome as given). -/

namespace Verif

variable {α : Type} [Add α] [Sub α] [Mul α] [Div α] [Neg α] [Histo α]

/-- The root searches of `m` indices from `ii` on, each starting with the `pp` left by the one before (`src/common.c:282-297`); `none` if one
of the loops is still running after `fuel` tests of its condition.  The writes between the searches do not touch the variables of the
search, so that they can be put after it. -/
def searchFrom (fuel n : ℕ) : ℕ → ℕ → α → Option (List (α × α))
  | 0, _, _ => some []
  | m + 1, ii, pp => do
    let r ← root fuel n ii pp
    let rest ← searchFrom fuel n m (ii + 1) r.2
    some (r :: rest)

/-- `nodes_weights_gauss_legendre` (`src/common.c:268-305`): searches for indices below `(n+1)/2` from `pp=0.`, then the arrays. -/
def nodesCall (fuel : ℕ) (xmin xmax : α) (x w : Buf α) (n : ℕ) : Option (Res (Buf α × Buf α)) := do
  let l ← searchFrom fuel n ((n + 1) / 2) 0 (Histo.lit 0)
  some (nodesWeights (fun ii => l.getD ii (Histo.lit 0, Histo.lit 0)) xmin xmax x w n)

end Verif
