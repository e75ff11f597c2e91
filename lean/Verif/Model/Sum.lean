import Verif.Model.Base
import Mathlib.Algebra.BigOperators.Group.Finset.Basic

/-!
# Accumulation loops
-/

namespace Verif

/-- `s=0.; for (i=0;i<n;i++) s += f(i);`, the shape of every quadrature loop of the C sources. -/
noncomputable def sumLoop (n : ℕ) (f : ℕ → Res ℝ) : Res ℝ :=
  forRange 0 n 0 fun i s => do
    let v ← f i
    .ok (s + v)

theorem sumLoop_ok (n : ℕ) (f : ℕ → Res ℝ) (g : ℕ → ℝ) (h : ∀ i < n, f i = .ok (g i)) :
    sumLoop n f = .ok (∑ i ∈ Finset.range n, g i) := by
  unfold sumLoop
  have hl := forRange_inv (lo := 0) (hi := n) (s := (0 : ℝ)) (body := fun i s => do let v ← f i; .ok (s + v))
    (P := fun i s => s = ∑ j ∈ Finset.range i, g j) (Nat.zero_le n) (by simp) (by
      intro j s _ hj hs
      refine ⟨s + g j, by simp [h j hj], ?_⟩
      rw [Finset.sum_range_succ, hs])
  obtain ⟨s, h1, h2⟩ := hl
  rw [h1, h2]

end Verif
