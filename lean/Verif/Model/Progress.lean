import Verif.Model.Base

/-!
# Progress messages of the runs
-/

namespace Verif

/-- `step_verbose = MAX(nk*STEP_VERBOSE/100,1)` with `STEP_VERBOSE` = 10, unsigned integer division (`src/spectrum_1loop.c:10,77`,
`src/spectrum_2loop.c:10,71`, `src/spectrum_bias_1loop.c:11,87`, `src/spectrum_A_1loop.c:13,48`, `src/spectrum_A_2loop.c:11,46`,
`src/spectrum_B.c:11,105`).  Unbounded integers: `nk*10` does not overflow for any array that fits in memory. -/
def stepVerbose (nk : ℕ) : ℕ := max (nk * 10 / 100) 1

/-- The percentages printed by the loop `for (ik=0;ik<nk;ik++) if ((verbose == INFO) && (ik % step_verbose == 0))
printf(..., ik*STEP_VERBOSE/step_verbose)` in the order of the modes (`src/spectrum_1loop.c:86-88` and the same line of the other
runs). -/
def progress (nk : ℕ) : List ℕ :=
  ((List.range nk).filter fun ik => ik % stepVerbose nk == 0).map fun ik => ik * 10 / stepVerbose nk

end Verif
