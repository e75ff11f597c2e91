import Verif.Model.Common

/-!
# Angular ranges of the quadrature terms
-/

namespace Verif

variable {α : Type} [Add α] [Sub α] [Mul α] [Div α] [Neg α] [Histo α]

open Histo (lit)

/-- `MAX` (`src/define.h`). -/
def cMax (a b : α) : α := if Histo.lt b a then a else b

/-- `MIN` (`src/define.h`). -/
def cMin (a b : α) : α := if Histo.lt a b then a else b

/-- `set_mu_range` up to the call of `update_gauss_legendre_mu`: the chosen range, or `none` for `return 0`.
`xs` is `gauss_legendre_q.x`, `nq` its size.  The five copies differ only in the half-plane step:
`half=true` for `src/calc_pkcorr_from_gamma2.c:108-118`, `src/calc_pkcorr_from_A_2loop_I.c:93-103`,
`src/calc_pkcorr_from_B.c:81-91`; `half=false` for `src/calc_pkcorr_from_A_1loop.c:110-119`;
`half=run_half` for `src/calc_pkcorr_from_bias_1loop.c:55-68`. -/
def muRange (half : Bool) (xs : List α) (nq : ℕ) (x : α) : Res (Option (α × α)) := do
  let xmin ← rd xs 0
  let xmax ← rd xs (subSize nq 1)
  let mumin := cMax (lit (-1)) ((lit 1 + x * x - xmax * xmax) / lit 2 / x)
  let mumax := cMin (lit 1) ((lit 1 + x * x - xmin * xmin) / lit 2 / x)
  if Histo.le (lit 1) mumin || Histo.le mumax (lit (-1)) || Histo.le mumax mumin then .ok none
  else
    let mumax := if half && Histo.le (lit (1 / 2)) x then lit (1 / 2) / x else mumax
    .ok (some (mumin, mumax))

end Verif
