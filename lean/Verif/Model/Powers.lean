import Verif.Model.Kernels

/-!
# Arrays of powers
-/

namespace Verif

/-- Contents of the arrays filled by `powers` (`src/common.c:93-99`): cell `n` holds the `n`-th power (`C01_powers`). -/
noncomputable def pw (x : ℝ) (n : ℕ) : ℝ := x ^ n

end Verif
