import Verif.Model.Common

/-!
# Modulus of `k-q`
-/

namespace Verif

variable {α : Type} [Add α] [Sub α] [Mul α] [Div α] [Neg α] [Histo α]

open Histo (lit)

/-- Argument of the square root in the modulus of `k-q`, in units of `k` (`src/calc_pkcorr_from_gamma2.c:40`,
`src/calc_pkcorr_from_gamma2.c:68`, `src/calc_pkcorr_from_bias_1loop.c:21`, `src/calc_pkcorr_from_A_2loop_I.c:46`), with the order of the
operations of C.  `src/calc_pkcorr_from_A_1loop.c:24` and `src/calc_pkcorr_from_B.c:26` take `x*x` from `powers`. -/
def kqArg (x mu : α) : α := lit 1 + x * x - lit 2 * mu * x

end Verif
