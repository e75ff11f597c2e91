import Mathlib.Analysis.Calculus.LocalExtr.Rolle
import Mathlib.Analysis.Calculus.Deriv.Polynomial
import Mathlib.Order.Interval.Finset.Basic
import Mathlib.LinearAlgebra.Lagrange

/-!
# The error of polynomial interpolation

Rolle's theorem for a chain of derivatives, and from it the remainder of the interpolating polynomial.  Nothing here depends on the model.
-/

namespace Verif

open Polynomial

/-- `D 0, D 1, …, D n` is a function followed by its first `n` derivatives on `[a,b]`. -/
def Derivs (D : ℕ → ℝ → ℝ) (n : ℕ) (a b : ℝ) : Prop := ∀ j < n, ∀ x ∈ Set.Icc a b, HasDerivAt (D j) (D (j + 1) x) x

theorem Derivs.mono {D : ℕ → ℝ → ℝ} {n m : ℕ} {a b c d : ℝ} (h : Derivs D n a b) (hm : m ≤ n) (hc : a ≤ c) (hd : d ≤ b) : Derivs D m c d :=
  fun j hj x hx => h j (by omega) x ⟨hc.trans hx.1, hx.2.trans hd⟩

/-- A function with `n + 1` zeros has an `n`-th derivative with a zero. -/
theorem rolle_chain {a b : ℝ} : ∀ (n : ℕ) (F : ℕ → ℝ → ℝ) (s : Finset ℝ), Derivs F n a b → (∀ x ∈ s, x ∈ Set.Icc a b ∧ F 0 x = 0) →
    n + 1 ≤ s.card → ∃ ξ ∈ Set.Icc a b, F n ξ = 0 := by
  intro n
  induction n with
  | zero =>
    intro F s _ hs hc
    obtain ⟨x, hx⟩ := Finset.card_pos.1 (by omega : 0 < s.card)
    exact ⟨x, hs x hx⟩
  | succ n ih =>
    intro F s hF hs hc
    have hstep : ∀ u ∈ s, ∀ v ∈ s, u < v → ∃ z ∈ Set.Ioo u v, F 1 z = 0 := by
      intro u hu v hv huv
      have hsub : ∀ x ∈ Set.Icc u v, x ∈ Set.Icc a b := fun x hx => ⟨(hs u hu).1.1.trans hx.1, hx.2.trans (hs v hv).1.2⟩
      refine exists_hasDerivAt_eq_zero huv (fun x hx => (hF 0 (by omega) x (hsub x hx)).continuousAt.continuousWithinAt) ?_
        (fun x hx => hF 0 (by omega) x (hsub x (Set.Ioo_subset_Icc_self hx)))
      rw [(hs u hu).2, (hs v hv).2]
    obtain ⟨t, ht, htc⟩ : ∃ t : Finset ℝ, (∀ x ∈ t, x ∈ Set.Icc a b ∧ F 1 x = 0) ∧ n + 1 ≤ t.card := by
      by_cases hfin : {x | x ∈ Set.Icc a b ∧ F 1 x = 0}.Finite
      · refine ⟨hfin.toFinset, fun x hx => by simpa using hx, ?_⟩
        have := Finset.card_le_of_interleaved (s := s) (t := hfin.toFinset) (fun u hu v hv huv _ => by
          obtain ⟨z, hz, hz0⟩ := hstep u hu v hv huv
          exact ⟨z, by simpa using ⟨⟨(hs u hu).1.1.trans hz.1.le, hz.2.le.trans (hs v hv).1.2⟩, hz0⟩, hz.1, hz.2⟩)
        omega
      · obtain ⟨t, ht, htc⟩ := Set.Infinite.exists_subset_card_eq hfin (n + 1)
        exact ⟨t, fun x hx => ht hx, htc.ge⟩
    exact ih (fun j => F (j + 1)) t (fun j hj x hx => hF (j + 1) (by omega) x hx) ht htc

theorem iterate_derivative_top (R : ℝ[X]) (n : ℕ) (h : R.natDegree ≤ n) (x : ℝ) : (derivative^[n] R).eval x = n.factorial * R.coeff n := by
  have h0 : (derivative^[n] R).natDegree = 0 := by have := natDegree_iterate_derivative R n; omega
  rw [eq_C_of_natDegree_eq_zero h0, eval_C, coeff_iterate_derivative, Nat.zero_add, Nat.descFactorial_self, nsmul_eq_mul]

/-- The remainder of interpolation: at every point of the interval the function differs from the interpolating polynomial by the `n`-th
derivative at some point, over `n!`, times the product of the distances from the nodes. -/
theorem interp_error {a b : ℝ} {n : ℕ} {D : ℕ → ℝ → ℝ} (hD : Derivs D n a b) (s : Finset ℝ) (hs : ∀ y ∈ s, y ∈ Set.Icc a b)
    (hn : s.card = n) (p : ℝ[X]) (hp : p.degree < n) (hps : ∀ y ∈ s, p.eval y = D 0 y) (x : ℝ) (hx : x ∈ Set.Icc a b) :
    ∃ ξ ∈ Set.Icc a b, D 0 x - p.eval x = D n ξ / n.factorial * ∏ y ∈ s, (x - y) := by
  by_cases hxs : x ∈ s
  · exact ⟨x, hx, by rw [hps x hxs, Finset.prod_eq_zero hxs (sub_self x)]; ring⟩
  have hw : ∏ y ∈ s, (x - y) ≠ 0 := Finset.prod_ne_zero_iff.2 fun y hy => sub_ne_zero.2 fun e => hxs (e ▸ hy)
  set W : ℝ[X] := ∏ y ∈ s, (X - C y) with hW
  have hWm : W.Monic := monic_prod_of_monic _ _ fun y _ => monic_X_sub_C y
  have hWd : W.natDegree = n := by rw [hW, natDegree_prod_of_monic _ _ fun y _ => monic_X_sub_C y]; simp [hn]
  have hWx : ∀ z, W.eval z = ∏ y ∈ s, (z - y) := fun z => by rw [hW, eval_prod]; simp
  set c := (D 0 x - p.eval x) / ∏ y ∈ s, (x - y) with hcdef
  set R := p + C c * W with hR
  have hRd : R.natDegree ≤ n := by
    refine (natDegree_add_le _ _).trans (max_le ?_ ((natDegree_C_mul_le _ _).trans hWd.le))
    exact natDegree_le_of_degree_le hp.le
  have hRc : R.coeff n = c := by
    rw [hR, coeff_add, coeff_C_mul, coeff_eq_zero_of_degree_lt hp, ← hWd, hWm.coeff_natDegree]; ring
  obtain ⟨ξ, hξ, h0⟩ := rolle_chain n (fun j y => D j y - (derivative^[j] R).eval y) (insert x s) (a := a) (b := b)
    (fun j hj y hy => (hD j hj y hy).sub (by
      rw [Function.iterate_succ_apply']; exact Polynomial.hasDerivAt _ _))
    (by
      intro y hy
      rcases Finset.mem_insert.1 hy with rfl | hy
      · refine ⟨hx, ?_⟩
        simp only [Function.iterate_zero_apply, hR, eval_add, eval_mul, eval_C, hWx, hcdef]
        field_simp; ring
      · refine ⟨hs y hy, ?_⟩
        simp only [Function.iterate_zero_apply, hR, eval_add, eval_mul, eval_C, hWx, hps y hy, Finset.prod_eq_zero hy (sub_self y)]
        ring)
    (by rw [Finset.card_insert_of_notMem hxs]; omega)
  refine ⟨ξ, hξ, ?_⟩
  simp only [iterate_derivative_top R n hRd, hRc] at h0
  have hf : (n.factorial : ℝ) ≠ 0 := by positivity
  rw [show D n ξ = n.factorial * c by linarith, mul_div_cancel_left₀ _ hf, hcdef, div_mul_cancel₀ _ hw]

end Verif
