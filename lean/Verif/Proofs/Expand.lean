import Mathlib.Analysis.SpecialFunctions.Exp

/-!
# A polynomial times an exponential, at small argument
-/

namespace Verif

open Asymptotics Filter Topology

/-- To second order. -/
theorem expand_two (q0 q1 F : ℝ) (r : ℝ → ℝ) (hr : ContinuousAt r 0) :
    (fun c : ℝ => (q0 + q1 * c + r c * c ^ 2) * Real.exp (-(c * F)) - (q0 + (q1 - q0 * F) * c)) =O[𝓝 0] fun c => c ^ 2 := by
  have hF : Tendsto (fun c : ℝ => -(c * F)) (𝓝 0) (𝓝 0) := by
    have : Continuous fun c : ℝ => -(c * F) := by fun_prop
    simpa using this.tendsto 0
  have h1 := (Real.exp_sub_sum_range_isBigO_pow 2).comp_tendsto hF
  have h2 : (fun c : ℝ => Real.exp (-(c * F)) - (1 - c * F)) =O[𝓝 0] fun c => c ^ 2 := by
    refine (h1.congr_left fun c => ?_).trans ?_
    · simp [Finset.sum_range_succ]
      ring
    · refine (isBigO_of_le' (c := F ^ 2) _ fun c => ?_)
      simp only [Function.comp, norm_pow, norm_neg, norm_mul, Real.norm_eq_abs]
      rw [mul_pow, sq_abs F, mul_comm]
  have hq : ContinuousAt (fun c : ℝ => q0 + q1 * c + r c * c ^ 2) 0 := by fun_prop
  have h3 := (hq.isBigO_one ℝ).mul h2
  have hp : ContinuousAt (fun c : ℝ => r c * (1 - c * F) - q1 * F) 0 := by fun_prop
  have h4 := (hp.isBigO_one ℝ).mul (isBigO_refl (fun c : ℝ => c ^ 2) (𝓝 0))
  simp only [one_mul] at h3 h4
  refine (h3.add h4).congr_left fun c => ?_
  ring

/-- To third order. -/
theorem expand_three (q0 q1 q2 F : ℝ) (r : ℝ → ℝ) (hr : ContinuousAt r 0) :
    (fun c : ℝ => (q0 + q1 * c + q2 * c ^ 2 + r c * c ^ 3) * Real.exp (-(c * F)) -
      (q0 + (q1 - q0 * F) * c + (q2 - q1 * F + q0 * F ^ 2 / 2) * c ^ 2)) =O[𝓝 0] fun c => c ^ 3 := by
  have hF : Tendsto (fun c : ℝ => -(c * F)) (𝓝 0) (𝓝 0) := by
    have : Continuous fun c : ℝ => -(c * F) := by fun_prop
    simpa using this.tendsto 0
  have h1 := (Real.exp_sub_sum_range_isBigO_pow 3).comp_tendsto hF
  have h2 : (fun c : ℝ => Real.exp (-(c * F)) - (1 - c * F + (c * F) ^ 2 / 2)) =O[𝓝 0] fun c => c ^ 3 := by
    refine (h1.congr_left fun c => ?_).trans ?_
    · simp [Finset.sum_range_succ]
      ring
    · refine (isBigO_of_le' (c := |F| ^ 3) _ fun c => ?_)
      simp only [Function.comp, norm_pow, norm_neg, norm_mul, Real.norm_eq_abs]
      rw [mul_pow, mul_comm]
  have hq : ContinuousAt (fun c : ℝ => q0 + q1 * c + q2 * c ^ 2 + r c * c ^ 3) 0 := by fun_prop
  have h3 := (hq.isBigO_one ℝ).mul h2
  have hp : ContinuousAt (fun c : ℝ => r c * (1 - c * F + (c * F) ^ 2 / 2) + q2 * (-F + c * F ^ 2 / 2) + q1 * F ^ 2 / 2) 0 := by fun_prop
  have h4 := (hp.isBigO_one ℝ).mul (isBigO_refl (fun c : ℝ => c ^ 3) (𝓝 0))
  simp only [one_mul] at h3 h4
  refine (h3.add h4).congr_left fun c => ?_
  ring

/-- As a function of the growth factor. -/
theorem expand_growth {f : ℝ → ℝ} {n : ℕ} (m : ℕ) (h : f =O[𝓝 0] fun c => c ^ n) : (fun D : ℝ => D ^ m * f (D ^ 2)) =O[𝓝 0] fun D => D ^ (2 * n + m) := by
  have hD : Tendsto (fun D : ℝ => D ^ 2) (𝓝 0) (𝓝 0) := by
    have : Continuous fun D : ℝ => D ^ 2 := by fun_prop
    simpa using this.tendsto 0
  refine ((isBigO_refl (fun D : ℝ => D ^ m) (𝓝 0)).mul (h.comp_tendsto hD)).congr_right fun D => ?_
  simp only [Function.comp]
  ring

end Verif
