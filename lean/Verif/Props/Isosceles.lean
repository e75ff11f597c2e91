import Verif.Proofs.Gamma2Iso

/-!
# C86: the kernels for nearly isosceles triangles
-/

namespace Verif

noncomputable section

open Real

/-! ## What they should be -/

/-- The expansion of `f` to first order around `k`. -/
def firstOrder (f : ℝ → ℝ) (k x : ℝ) : ℝ := f k + deriv f k * (x - k)

/-! ## Density -/

/-- C86: `kernel_gamma2d_iso` is the expansion of `kernel_gamma2d_exact` to first order in `k2` around `k2 = k1`. -/
theorem C86_density (k k3 q : ℝ) (hk : 0 < k) (h3 : 0 < k3) (h : k3 < 2 * k) (hq : 0 < q) (n1 : q ≠ k) (n3 : q ≠ k3) :
    DifferentiableAt ℝ (fun x => g2dExact k x k3 q) k ∧
    ∀ x, g2dIso k x k3 q = firstOrder (fun x => g2dExact k x k3 q) k x := by
  have hd := g2dExact_hasDerivAt k k3 q hk h3 h hq n1 n3
  refine ⟨hd.differentiableAt, fun x => ?_⟩
  rw [firstOrder, hd.deriv, g2dExact_diag k k3 q hk h3 h hq n1 n3, g2dIso_form k x k3 q hk h3 h hq n1 n3]

example (x : ℝ) : g2dIso 4 x 3 2 = firstOrder (fun x => g2dExact 4 x 3 2) 4 x :=
  (C86_density 4 3 2 (by norm_num) (by norm_num) (by norm_num) (by norm_num) (by norm_num) (by norm_num)).2 x

/-- C86: the error of `kernel_gamma2d_iso` is small compared with the difference of the two sides. -/
theorem C86_density_error (k k3 q : ℝ) (hk : 0 < k) (h3 : 0 < k3) (h : k3 < 2 * k) (hq : 0 < q) (n1 : q ≠ k) (n3 : q ≠ k3) (c : ℝ)
    (hc : 0 < c) : ∃ d > 0, ∀ x, |x - k| < d → |g2dExact k x k3 q - g2dIso k x k3 q| ≤ c * |x - k| := by
  have hd := g2dExact_hasDerivAt k k3 q hk h3 h hq n1 n3
  have ho := (hasDerivAt_iff_isLittleO.1 hd).def hc
  obtain ⟨d, d0, hd'⟩ := Metric.eventually_nhds_iff.1 ho
  refine ⟨d, d0, fun x hx => ?_⟩
  have := hd' (by rwa [Real.dist_eq])
  rw [Real.norm_eq_abs, Real.norm_eq_abs, smul_eq_mul] at this
  rw [(C86_density k k3 q hk h3 h hq n1 n3).2 x, firstOrder, hd.deriv]
  convert this using 2
  ring

example : ∃ d > 0, ∀ x, |x - 4| < d → |g2dExact 4 x 3 2 - g2dIso 4 x 3 2| ≤ 1 / 10 * |x - 4| :=
  C86_density_error 4 3 2 (by norm_num) (by norm_num) (by norm_num) (by norm_num) (by norm_num) (by norm_num) _ (by norm_num)

/-! ## Velocity -/

/-- The difference of `kernel_gamma2t_iso` and the expansion: one term has a factor `k1` raised to the power 1.5. -/
theorem g2tIso_error (k x k3 q : ℝ) (hk : 0 < k) (h3 : 0 < k3) (h : k3 < 2 * k) (hq : 0 < q) (n1 : q ≠ k) (n3 : q ≠ k3) :
    DifferentiableAt ℝ (fun x => g2tExact k x k3 q) k ∧
    g2tIso k x k3 q = firstOrder (fun x => g2tExact k x k3 q) k x +
      (1 / Real.sqrt k - 1) * (π * (g2tIS k (x/k - 1) k3 q * triLog (k * q) (triM k k3 k q))) := by
  have hd := g2tExact_hasDerivAt k k3 q hk h3 h hq n1 n3
  refine ⟨hd.differentiableAt, ?_⟩
  rw [firstOrder, hd.deriv, g2tExact_diag k k3 q hk h3 h hq n1 n3, g2tIso_form k x k3 q hk h3 h hq n1 n3]
  ring

/-- C86 for `kernel_gamma2t_iso`, where it holds: for `k1 = 1` it is the expansion of `kernel_gamma2t_exact` to first order. -/
theorem C86_theta_partial (k3 q : ℝ) (h3 : 0 < k3) (h : k3 < 2) (hq : 0 < q) (n1 : q ≠ 1) (n3 : q ≠ k3) :
    DifferentiableAt ℝ (fun x => g2tExact 1 x k3 q) 1 ∧
    ∀ x, g2tIso 1 x k3 q = firstOrder (fun x => g2tExact 1 x k3 q) 1 x := by
  have he := fun x => g2tIso_error 1 x k3 q one_pos h3 (by linarith) hq n1 n3
  refine ⟨(he 1).1, fun x => ?_⟩
  rw [(he x).2, Real.sqrt_one]
  ring

example (x : ℝ) : g2tIso 1 x (3 / 2) 2 = firstOrder (fun x => g2tExact 1 x (3 / 2) 2) 1 x :=
  (C86_theta_partial (3 / 2) 2 (by norm_num) (by norm_num) (by norm_num) (by norm_num) (by norm_num)).2 x

/-- C86 for `kernel_gamma2t_iso` and `k1 = k2`: the error is a multiple of one term of the exact kernel, which depends on the unit of
length. -/
theorem C86_theta_error_partial (k k3 q : ℝ) (hk : 0 < k) (h3 : 0 < k3) (h : k3 < 2 * k) (hq : 0 < q) (n1 : q ≠ k) (n3 : q ≠ k3) :
    g2tIso k k k3 q - g2tExact k k k3 q = (1 / Real.sqrt k - 1) * (π * (k ^ 2 - q ^ 2) ^ 2 * (k3 ^ 2 - q ^ 2) * (8 * k3 ^ 2 + 3 * q ^ 2) *
      WFunc k k3 k q / (3696 * k * q ^ 5 * Real.sqrt ((k ^ 2 - q ^ 2) * (k3 ^ 2 - q ^ 2) + (k * q) ^ 2))) := by
  have hS := iso_S_pos k k3 q hk h3 h
  have w := WFunc_triLog k k3 k q ⟨hk, h3, hk, by linarith, by linarith, by linarith⟩ hq n1 n3
    ((k ^ 2 - q ^ 2) * (k3 ^ 2 - q ^ 2) + (k * q) ^ 2) rfl
  rw [(g2tIso_error k k k3 q hk h3 h hq n1 n3).2, firstOrder, sub_self, mul_zero, add_zero, add_sub_cancel_left, ← w, div_self hk.ne']
  have e : g2tIS k (1 - 1) k3 q = (k ^ 2 - q ^ 2) ^ 2 * (k3 ^ 2 - q ^ 2) * (8 * k3 ^ 2 + 3 * q ^ 2) / (3696 * k * q ^ 5) := by
    unfold g2tIS
    have hS' := hS.ne'
    generalize hSe : k^2*k3^2 - k3^2*q^2 + q^4 = S at *
    have e2 : 2*(1 + (1 - 1))*k^4*k3^2 + (-2 + (1 - 1))*q^4*(-k3^2 + q^2) + k^2*q^2*(-((4 + (1 - 1))*k3^2) + (2 + 3*(1 - 1))*q^2) =
        2 * (k^2 - q^2) * S := by rw [← hSe]; ring
    rw [e2]
    field_simp
    ring
  rw [e]
  ring

example : g2tIso 4 4 3 2 - g2tExact 4 4 3 2 = (1 / Real.sqrt 4 - 1) * (π * (4 ^ 2 - 2 ^ 2) ^ 2 * (3 ^ 2 - 2 ^ 2) * (8 * 3 ^ 2 + 3 * 2 ^ 2) *
    WFunc 4 3 4 2 / (3696 * 4 * 2 ^ 5 * Real.sqrt ((4 ^ 2 - 2 ^ 2) * (3 ^ 2 - 2 ^ 2) + (4 * 2) ^ 2))) :=
  C86_theta_error_partial 4 3 2 (by norm_num) (by norm_num) (by norm_num) (by norm_num) (by norm_num) (by norm_num)

theorem triLog_pos (a m : ℝ) (ha : 0 < a) (hm : 0 < m) (hn : m ≠ a ^ 2) : 0 < triLog a m := by
  have s0 : 0 < Real.sqrt m := Real.sqrt_pos.2 hm
  have hs : Real.sqrt m - a ≠ 0 := fun e => hn (by rw [← sub_eq_zero.1 e, Real.sq_sqrt hm.le])
  have hl : 1 < |(Real.sqrt m + a) / (Real.sqrt m - a)| := by
    rw [abs_div, one_lt_div (abs_pos.2 hs), abs_of_pos (add_pos s0 ha), abs_lt]
    constructor <;> linarith
  have := Real.log_pos hl
  unfold triLog
  positivity

/-- C86 fails for `kernel_gamma2t_iso` at every `k1` other than one, even for `k1 = k2`. -/
theorem C86_theta_violation (k k3 q : ℝ) (hk : 0 < k) (h3 : 0 < k3) (h : k3 < 2 * k) (hq : 0 < q) (n1 : q ≠ k) (n3 : q ≠ k3)
    (hk1 : k ≠ 1) : g2tIso k k k3 q ≠ g2tExact k k k3 q := by
  obtain ⟨hN, hM, -⟩ := iso_tri_deriv k k3 q hk h3 h hq n1 n3
  have hS := iso_S_pos k k3 q hk h3 h
  have w := WFunc_triLog k k3 k q ⟨hk, h3, hk, by linarith, by linarith, by linarith⟩ hq n1 n3
    ((k ^ 2 - q ^ 2) * (k3 ^ 2 - q ^ 2) + (k * q) ^ 2) rfl
  have ht : triLog (k * q) (triM k k3 k q) ≠ 0 := (triLog_pos _ _ (by positivity) (by rw [triM_S]; exact hS) fun e =>
    mul_ne_zero hN hM (by unfold triM at e; linarith)).ne'
  rw [← w] at ht
  have hW := (div_ne_zero_iff.1 ht)
  refine sub_ne_zero.1 ?_
  rw [C86_theta_error_partial k k3 q hk h3 h hq n1 n3]
  have h8 : 8 * k3 ^ 2 + 3 * q ^ 2 ≠ 0 := by positivity
  have hd : 3696 * k * q ^ 5 ≠ 0 := by positivity
  have hr : 1 / Real.sqrt k - 1 ≠ 0 := fun e => hk1 (by
    have : Real.sqrt k = 1 := by
      have := (Real.sqrt_pos.2 hk).ne'
      field_simp at e
      linarith
    exact Real.sqrt_eq_one.1 this)
  exact mul_ne_zero hr (div_ne_zero (mul_ne_zero (mul_ne_zero (mul_ne_zero (mul_ne_zero Real.pi_ne_zero (pow_ne_zero 2 hN)) hM) h8) hW.1)
    (mul_ne_zero hd hW.2))

example : g2tIso 4 4 3 2 ≠ g2tExact 4 4 3 2 :=
  C86_theta_violation 4 3 2 (by norm_num) (by norm_num) (by norm_num) (by norm_num) (by norm_num) (by norm_num) (by norm_num)

end

end Verif
