import Verif.Model.Python

/-!
# Variance of the field smoothed in a sphere (`pyregpt/pyregpt.py`)

A division by zero is a NaN in the program and zero here, so statements about values ask for positive modes and radii.
-/

namespace Verif

noncomputable section

/-- `integrate.trapz(y, x=x)` of `n` values (SciPy). -/
def trapz (n : ℕ) (y x : ℕ → ℝ) : ℝ := ∑ j ∈ Finset.range (n - 1), (x (j + 1) - x j) * (y (j + 1) + y j) / 2

/-- The window `w` of `sigmar` at `x = k * r` (`pyregpt/pyregpt.py:139-140`). -/
def topHat (x : ℝ) : ℝ := 3 * (Real.sin x - x * Real.cos x) / x ^ 3

/-- `sigmar2` (`pyregpt/pyregpt.py:139-141`) for the values `pk` that `self.pk(**kwargs)` returned. -/
def sigmar2 (n : ℕ) (k pk : ℕ → ℝ) (r : ℝ) : ℝ := 1 / 2 / Real.pi ^ 2 * trapz n (fun j => pk j * (topHat (k j * r) * k j) ^ 2) k

namespace Terms

/-- `sigmar` (`pyregpt/pyregpt.py:138-142`). -/
def sigmar (t : Terms) (pk : ℕ → ℝ) (r : ℝ) : ℝ := Real.sqrt (sigmar2 (t.get "k").length (t.val "k") pk r)

/-- `sigma8` (`pyregpt/pyregpt.py:144-145`). -/
def sigma8 (t : Terms) (pk : ℕ → ℝ) : ℝ := t.sigmar pk 8

/-- `sigmav` (`pyregpt/pyregpt.py:135-136`). -/
def sigmav (t : Terms) (pk : ℕ → ℝ) : ℝ := Real.sqrt (1 / 6 / Real.pi ^ 2 * trapz (t.get "k").length pk (t.val "k"))

end Terms

end

end Verif
