import Verif.Proofs.Gamma2Form
import Mathlib.Analysis.SpecialFunctions.Log.Deriv
import Mathlib.Analysis.SpecificLimits.Basic

/-!
# Truncated series of the logarithms in the second-order loop kernels
-/

namespace Verif

noncomputable section

/-- Truncated series of the inverse hyperbolic tangent (the logarithms of `src/kernels.c:38-56` are twice and four times it). -/
def artSum (N : ℕ) (x : ℝ) : ℝ := ∑ j ∈ Finset.range N, x ^ (2 * j + 1) / (2 * j + 1)

theorem log_near (N : ℕ) (x : ℝ) (h0 : 0 ≤ x) (h1 : x ≤ 1 / 2) :
    |Real.log (1 + x) - Real.log (1 - x) - 2 * artSum N x| ≤ 3 * x ^ (2 * N + 1) := by
  have hx : |x| < 1 := by rw [abs_of_nonneg h0]; linarith
  have h := (hasSum_nat_add_iff' N).mpr (Real.hasSum_log_sub_log_of_abs_lt_one hx)
  have e : ∑ i ∈ Finset.range N, (2 : ℝ) * (1 / (2 * i + 1)) * x ^ (2 * i + 1) = 2 * artSum N x := by
    rw [artSum, Finset.mul_sum]
    exact Finset.sum_congr rfl fun i _ => by ring
  rw [e] at h
  have hg : HasSum (fun n : ℕ => 2 * x ^ (2 * N + 1) * (x ^ 2) ^ n) (2 * x ^ (2 * N + 1) * (1 - x ^ 2)⁻¹) :=
    (hasSum_geometric_of_lt_one (by positivity) (by nlinarith)).mul_left _
  have hle := hasSum_le (fun n => ?_) h hg
  · have hn := h.nonneg fun n => by positivity
    rw [abs_of_nonneg hn]
    refine hle.trans ?_
    have : (1 - x ^ 2)⁻¹ ≤ 3 / 2 := by
      rw [inv_le_comm₀ (by nlinarith) (by norm_num)]
      nlinarith
    calc 2 * x ^ (2 * N + 1) * (1 - x ^ 2)⁻¹ ≤ 2 * x ^ (2 * N + 1) * (3 / 2) := by gcongr
      _ = _ := by ring
  · have h3 : (1 : ℝ) / (2 * ((n + N : ℕ) : ℝ) + 1) ≤ 1 := by
      rw [div_le_one (by positivity)]
      linarith [Nat.cast_nonneg (α := ℝ) (n + N)]
    have h4 : x ^ (2 * (n + N) + 1) = x ^ (2 * N + 1) * (x ^ 2) ^ n := by rw [← pow_mul, ← pow_add]; ring_nf
    rw [h4]
    have h5 : 0 ≤ x ^ (2 * N + 1) * (x ^ 2) ^ n := by positivity
    nlinarith

theorem LFunc_large (N : ℕ) (k q : ℝ) (hk : 0 < k) (hq : 2 * k ≤ q) : |LFunc k q - 4 * artSum N (k / q)| ≤ 6 * (k / q) ^ (2 * N + 1) := by
  have hq0 : 0 < q := by linarith
  have h := log_near N (k / q) (by positivity) (by rw [div_le_iff₀ hq0]; linarith)
  have e : |(k + q) / (k - q)| = (1 + k / q) / (1 - k / q) := by
    rw [abs_of_neg (div_neg_of_pos_of_neg (by linarith) (by linarith))]
    have : k - q ≠ 0 := by linarith
    have : q - k ≠ 0 := by linarith
    field_simp
    ring
  have h1 : 0 < 1 - k / q := by rw [sub_pos, div_lt_one hq0]; linarith
  rw [LFunc, e, Real.log_div (by positivity) h1.ne']
  rw [show 2 * (Real.log (1 + k / q) - Real.log (1 - k / q)) - 4 * artSum N (k / q) =
    2 * (Real.log (1 + k / q) - Real.log (1 - k / q) - 2 * artSum N (k / q)) from by ring, abs_mul, abs_of_pos (by norm_num : (0 : ℝ) < 2)]
  linarith

theorem LFunc_small (N : ℕ) (k q : ℝ) (hq0 : 0 < q) (hq : 2 * q ≤ k) : |LFunc k q - 4 * artSum N (q / k)| ≤ 6 * (q / k) ^ (2 * N + 1) := by
  have hk0 : 0 < k := by linarith
  have h := log_near N (q / k) (by positivity) (by rw [div_le_iff₀ hk0]; linarith)
  have e : |(k + q) / (k - q)| = (1 + q / k) / (1 - q / k) := by
    rw [abs_of_pos (div_pos (by linarith) (by linarith))]
    have : k - q ≠ 0 := by linarith
    field_simp
  have h1 : 0 < 1 - q / k := by rw [sub_pos, div_lt_one hk0]; linarith
  rw [LFunc, e, Real.log_div (by positivity) h1.ne']
  rw [show 2 * (Real.log (1 + q / k) - Real.log (1 - q / k)) - 4 * artSum N (q / k) =
    2 * (Real.log (1 + q / k) - Real.log (1 - q / k) - 2 * artSum N (q / k)) from by ring, abs_mul, abs_of_pos (by norm_num : (0 : ℝ) < 2)]
  linarith

/-- Truncated series of `triLog` for a small first argument. -/
def triSum (N : ℕ) (a m : ℝ) : ℝ := 4 * a / m * ∑ j ∈ Finset.range N, (a ^ 2 / m) ^ j / (2 * j + 1)

theorem triLog_near (N : ℕ) (a m : ℝ) (ha : 0 < a) (hm : 4 * a ^ 2 ≤ m) :
    |triLog a m - triSum N a m| ≤ 6 * a / m * (a ^ 2 / m) ^ N := by
  have hm0 : 0 < m := lt_of_lt_of_le (by positivity) hm
  have hs := Real.sqrt_pos.mpr hm0
  have hss : Real.sqrt m ^ 2 = m := Real.sq_sqrt hm0.le
  set s := Real.sqrt m with hsd
  have h2 : 2 * a ≤ s := by nlinarith
  have h := log_near N (a / s) (by positivity) (by rw [div_le_iff₀ hs]; linarith)
  have e : |(s + a) / (s - a)| = (1 + a / s) / (1 - a / s) := by
    rw [abs_of_pos (div_pos (by linarith) (by linarith))]
    have : s - a ≠ 0 := by linarith
    field_simp
  have h1 : 0 < 1 - a / s := by rw [sub_pos, div_lt_one hs]; linarith
  have e2 : triSum N a m = 2 / s * (2 * artSum N (a / s)) := by
    rw [triSum, artSum, Finset.mul_sum, Finset.mul_sum, Finset.mul_sum]
    refine Finset.sum_congr rfl fun j _ => ?_
    rw [← hss, div_pow, div_pow, ← pow_mul, ← pow_mul, pow_succ, pow_succ]
    field_simp
    ring
  rw [triLog, ← hsd, e, Real.log_div (by positivity) h1.ne', e2]
  rw [show 2 * (Real.log (1 + a / s) - Real.log (1 - a / s)) / s - 2 / s * (2 * artSum N (a / s)) =
    2 / s * (Real.log (1 + a / s) - Real.log (1 - a / s) - 2 * artSum N (a / s)) from by ring, abs_mul,
    abs_of_pos (by positivity : (0 : ℝ) < 2 / s)]
  calc 2 / s * |Real.log (1 + a / s) - Real.log (1 - a / s) - 2 * artSum N (a / s)| ≤ 2 / s * (3 * (a / s) ^ (2 * N + 1)) := by gcongr
    _ = 6 * a / m * (a ^ 2 / m) ^ N := by
      rw [← hss, div_pow, div_pow, ← pow_mul, ← pow_mul, pow_succ, pow_succ]
      field_simp
      ring

end

end Verif
