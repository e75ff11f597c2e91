import Verif.Model.Gamma2Iso
import Verif.Proofs.Gamma2IsoCoef
import Mathlib.Analysis.SpecialFunctions.Log.Deriv
import Mathlib.Analysis.SpecialFunctions.Sqrt

/-!
# The kernels for nearly isosceles triangles as first-order expansions
-/

namespace Verif

noncomputable section

open Real

theorem rpow_three_half (x : ℝ) (hx : 0 < x) : x ^ (1.5:ℝ) = x * Real.sqrt x := by
  rw [Real.sqrt_eq_rpow, ← Real.rpow_one_add' hx.le (by norm_num)]; norm_num

theorem iso_S_pos (k k3 q : ℝ) (hk : 0 < k) (h3 : 0 < k3) (h : k3 < 2*k) : 0 < k^2*k3^2 - k3^2*q^2 + q^4 := by
  have e : 4 * (k^2*k3^2 - k3^2*q^2 + q^4) = (2*q^2 - k3^2)^2 + k3^2*(2*k-k3)*(2*k+k3) := by ring
  have h1 : 0 < 2*k-k3 := by linarith
  have : 0 < k3^2*(2*k-k3)*(2*k+k3) := by positivity
  nlinarith [sq_nonneg (2*q^2 - k3^2)]

theorem iso_T_pos (k k3 q : ℝ) (h3 : 0 < k3) (hq : 0 < q) : 0 < k^4 - 2*k^2*q^2 + k3^2*q^2 + q^4 := by
  have : k^4 - 2*k^2*q^2 + k3^2*q^2 + q^4 = (k^2-q^2)^2 + k3^2*q^2 := by ring
  rw [this]; positivity

theorem triM_S (k k3 q : ℝ) : triM k k3 k q = k^2*k3^2 - k3^2*q^2 + q^4 := by unfold triM; ring

theorem triM_T (k k3 q : ℝ) : triM k k k3 q = k^4 - 2*k^2*q^2 + k3^2*q^2 + q^4 := by unfold triM; ring

theorem LFunc_hasDerivAt (k q : ℝ) (h : k ^ 2 - q ^ 2 ≠ 0) : HasDerivAt (fun x => LFunc x q) (-(4 * q) / (k ^ 2 - q ^ 2)) k := by
  have h' : (k + q) * (k - q) ≠ 0 := by convert h using 1; ring
  obtain ⟨h1, h2⟩ := mul_ne_zero_iff.1 h'
  have hd := ((((hasDerivAt_id' k).add_const q).fun_div ((hasDerivAt_id' k).sub_const q) h2).log (div_ne_zero h1 h2)).const_mul 2
  refine (hd.congr_deriv ?_).congr_of_eventuallyEq (Filter.Eventually.of_forall fun x => ?_)
  · field_simp; ring
  · simp only [LFunc, Real.log_abs]

theorem triLog_hasDerivAt {a m : ℝ → ℝ} {a' m' x : ℝ} (ha : HasDerivAt a a' x) (hm : HasDerivAt m m' x) (h0 : 0 < m x)
    (hne : m x - a x ^ 2 ≠ 0) : HasDerivAt (fun y => triLog (a y) (m y))
      ((4 * a' - 2 * a x * m' / m x) / (m x - a x ^ 2) - triLog (a x) (m x) * m' / (2 * m x)) x := by
  have hs : HasDerivAt (fun y => Real.sqrt (m y)) (m' / (2 * Real.sqrt (m x))) x := hm.sqrt h0.ne'
  have s0 : 0 < Real.sqrt (m x) := Real.sqrt_pos.2 h0
  have sq : Real.sqrt (m x) ^ 2 = m x := Real.sq_sqrt h0.le
  have h' : (Real.sqrt (m x) + a x) * (Real.sqrt (m x) - a x) ≠ 0 := by
    convert hne using 1; rw [← sq, Real.sqrt_sq s0.le]; ring
  obtain ⟨h1, h2⟩ := mul_ne_zero_iff.1 h'
  have hd := ((((hs.fun_add ha).fun_div (hs.fun_sub ha) h2).log (div_ne_zero h1 h2)).const_mul 2).fun_div hs s0.ne'
  refine (hd.congr_deriv ?_).congr_of_eventuallyEq (Filter.Eventually.of_forall fun y => ?_)
  · simp only [triLog, Real.log_abs]
    generalize Real.log ((Real.sqrt (m x) + a x) / (Real.sqrt (m x) - a x)) = l
    generalize hS : Real.sqrt (m x) = s at *
    rw [← sq] at hne ⊢
    field_simp
    ring
  · simp only [triLog, Real.log_abs]

theorem iso_logs (k k3 q : ℝ) (hk : 0 < k) (h3 : 0 < k3) (h : k3 < 2*k) (hq : 0 < q) (n1 : q ≠ k) (n3 : q ≠ k3) :
    Real.log ((-(k3^2*q^2) + q^4 + k^2*(k3^2+q^2) + 2*k*q*(Real.sqrt (k^2*k3^2 - k3^2*q^2 + q^4)))/(-(k3^2*q^2) + q^4 +
      k^2*(k3^2+q^2) - 2*k*q*(Real.sqrt (k^2*k3^2 - k3^2*q^2 + q^4)))) =
      triLog (k * q) (triM k k3 k q) * Real.sqrt (k^2*k3^2 - k3^2*q^2 + q^4) ∧
    Real.log (-((4*k3^2*q^2 + 2*(k^2 - q^2)*(k^2 - q^2) + 4*k3*q*(Real.sqrt (k^4 + ((-2)*k^2 + k3^2)*q^2 + q^4)))/((-4)*k3^2*q^2 -
      2*(k^2 - q^2)*(k^2 - q^2) + 4*k3*q*(Real.sqrt (k^4 + ((-2)*k^2 + k3^2)*q^2 + q^4))))) =
      triLog (k3 * q) (triM k k k3 q) * Real.sqrt (k^4 - 2*k^2*q^2 + k3^2*q^2 + q^4) := by
  have hS := iso_S_pos k k3 q hk h3 h
  have hT := iso_T_pos k k3 q h3 hq
  have t1 : Triangle k k3 k := ⟨hk, h3, hk, by linarith, by linarith, by linarith⟩
  have t2 : Triangle k k k3 := ⟨hk, hk, h3, by linarith, by linarith, by linarith⟩
  have w1 := WFunc_triLog k k3 k q t1 hq n1 n3 (k^2*k3^2 - k3^2*q^2 + q^4) (triM_S k k3 q).symm
  have w2 := WFunc_triLog k k k3 q t2 hq n1 n1 (k^4 - 2*k^2*q^2 + k3^2*q^2 + q^4) (triM_T k k3 q).symm
  rw [← w1, ← w2, div_mul_cancel₀ _ (Real.sqrt_pos.2 hS).ne', div_mul_cancel₀ _ (Real.sqrt_pos.2 hT).ne']
  constructor
  · have : k*k*(k3*k3) + (-(k*k) - k3*k3 + k*k)*(q*q) + q*q*(q*q) = k^2*k3^2 - k3^2*q^2 + q^4 := by ring
    simp only [WFunc]
    rw [this, ← mul_div_mul_left _ _ (show (-2:ℝ) ≠ 0 by norm_num)]
    congr 2 <;> ring
  · have : k*k*(k*k) + (-(k*k) - k*k + k3*k3)*(q*q) + q*q*(q*q) = k^4 + ((-2)*k^2 + k3^2)*q^2 + q^4 := by ring
    simp only [WFunc]
    rw [this, ← neg_div]
    congr 2 <;> ring

/-! ## `kernel_gamma2d_iso` -/

theorem g2dIso_form (k x k3 q : ℝ) (hk : 0 < k) (h3 : 0 < k3) (h : k3 < 2*k) (hq : 0 < q) (n1 : q ≠ k) (n3 : q ≠ k3) :
    g2dIso k x k3 q = π * (g2dI0 k (x/k - 1) k3 q + g2dI1 k (x/k - 1) k3 q * LFunc k q + g2dI3 k (x/k - 1) k3 q * LFunc k3 q +
      g2dIS k (x/k - 1) k3 q * triLog (k * q) (triM k k3 k q) + g2dIT k (x/k - 1) k3 q * triLog (k3 * q) (triM k k k3 q)) := by
  have hS := iso_S_pos k k3 q hk h3 h
  have hT := iso_T_pos k k3 q h3 hq
  obtain ⟨w1, w2⟩ := iso_logs k k3 q hk h3 h hq n1 n3
  have l1 : ∀ a : ℝ, 2 * Real.log |(a + q) / (a - q)| = LFunc a q := fun _ => rfl
  simp only [g2dIso, g2dIsoE, pw, pow_one, w1, w2, rpow_three_half _ hS, rpow_three_half _ hT, C01_power, g2dI0, g2dI1, g2dI3,
    g2dIS, g2dIT, ← l1]
  generalize x/k - 1 = e
  generalize Real.log |(k + q) / (k - q)| = L1
  generalize Real.log |(k3 + q) / (k3 - q)| = L3
  generalize triLog (k * q) (triM k k3 k q) = ts
  generalize triLog (k3 * q) (triM k k k3 q) = tt
  have s1 := (Real.sqrt_pos.2 hS).ne'
  have s2 := (Real.sqrt_pos.2 hT).ne'
  generalize Real.sqrt (k^2*k3^2 - k3^2*q^2 + q^4) = rs at *
  generalize Real.sqrt (k^4 - 2*k^2*q^2 + k3^2*q^2 + q^4) = rt at *
  generalize hSe : k^2*k3^2 - k3^2*q^2 + q^4 = S at *
  generalize hTe : k^4 - 2*k^2*q^2 + k3^2*q^2 + q^4 = T at *
  have c1 : ∀ a b : ℝ, a * (ts * rs) / (b * (S * rs)) = a * ts / (b * S) := fun a b => by
    rw [← mul_assoc, ← mul_assoc, mul_div_mul_right _ _ s1]
  have c2 : ∀ a b : ℝ, a * (tt * rt) / (b * (T * rt)) = a * tt / (b * T) := fun a b => by
    rw [← mul_assoc, ← mul_assoc, mul_div_mul_right _ _ s2]
  rw [c1, c2]
  ring

theorem g2dI1_first (k e k3 q : ℝ) (hk : 0 < k) (hq : 0 < q) : g2dI1 k e k3 q =
    g2dCL1 (pw k) (pw k) (pw k3) (pw q) + g2dCL2 (pw k) (pw k) (pw k3) (pw q) + (g2dCL1D k k3 q + g2dCL2D k k3 q) * (k * e) := by
  simp only [g2dI1, g2dCL1, g2dCL2, g2dCL1D, g2dCL2D, pw]; field_simp; ring

theorem g2dI3_first (k e k3 q : ℝ) (hk : 0 < k) (h3 : 0 < k3) (hq : 0 < q) : g2dI3 k e k3 q =
    g2dCL3 (pw k) (pw k) (pw k3) (pw q) + g2dCL3D k k3 q * (k * e) := by
  simp only [g2dI3, g2dCL3, g2dCL3D, pw]; field_simp; ring

theorem g2dIT_first (k e k3 q : ℝ) (hk : 0 < k) (hq : 0 < q) (hT : k^4 - 2*k^2*q^2 + k3^2*q^2 + q^4 ≠ 0) : g2dIT k e k3 q =
    g2dCW1 (pw k) (pw k) (pw k3) (pw q) + (g2dCW1D k k3 q - g2dCW1 (pw k) (pw k) (pw k3) (pw q) * (k * (k^2 - q^2)) /
      (k^4 - 2*k^2*q^2 + k3^2*q^2 + q^4)) * (k * e) := by
  simp only [g2dIT, g2dCW1, g2dCW1D, pw]
  generalize hTe : k^4 - 2*k^2*q^2 + k3^2*q^2 + q^4 = T at *
  field_simp
  rw [← hTe]
  ring

theorem g2dIS_first (k e k3 q : ℝ) (hk : 0 < k) (hq : 0 < q) (hS : k^2*k3^2 - k3^2*q^2 + q^4 ≠ 0) : g2dIS k e k3 q =
    g2dCW2 (pw k) (pw k) (pw k3) (pw q) + g2dCW3 (pw k) (pw k) (pw k3) (pw q) + (g2dCW2D k k3 q + g2dCW3D k k3 q -
      g2dCW2 (pw k) (pw k) (pw k3) (pw q) * (k * q^2) / (k^2*k3^2 - k3^2*q^2 + q^4) -
      g2dCW3 (pw k) (pw k) (pw k3) (pw q) * (k * (k3^2 - q^2)) / (k^2*k3^2 - k3^2*q^2 + q^4)) * (k * e) := by
  simp only [g2dIS, g2dCW2, g2dCW3, g2dCW2D, g2dCW3D, pw]
  generalize hSe : k^2*k3^2 - k3^2*q^2 + q^4 = S at *
  field_simp
  rw [← hSe]
  ring

theorem g2dI0_first (k e k3 q : ℝ) (hk : 0 < k) (h3 : 0 < k3) (hq : 0 < q) (hS : k^2*k3^2 - k3^2*q^2 + q^4 ≠ 0)
    (hT : k^4 - 2*k^2*q^2 + k3^2*q^2 + q^4 ≠ 0) (hn : k^2 - q^2 ≠ 0) : g2dI0 k e k3 q =
    g2dC0 (pw k) (pw k) (pw k3) (pw q) + (g2dC0D k k3 q + g2dCL2 (pw k) (pw k) (pw k3) (pw q) * (-(4 * q) / (k^2 - q^2)) +
      g2dCW1 (pw k) (pw k) (pw k3) (pw q) * (-(4*k*k3*q) / ((k^4 - 2*k^2*q^2 + k3^2*q^2 + q^4) * (k^2 - q^2))) +
      g2dCW2 (pw k) (pw k) (pw k3) (pw q) * (4*q / (k^2*k3^2 - k3^2*q^2 + q^4)) +
      g2dCW3 (pw k) (pw k) (pw k3) (pw q) * (-(4*k^2*q) / ((k^2*k3^2 - k3^2*q^2 + q^4) * (k^2 - q^2)))) * (k * e) := by
  simp only [g2dI0, g2dCL2, g2dCW1, g2dCW2, g2dCW3, g2dC0, g2dC0D, pw]
  generalize hSe : k^2*k3^2 - k3^2*q^2 + q^4 = S at *
  generalize hTe : k^4 - 2*k^2*q^2 + k3^2*q^2 + q^4 = T at *
  generalize hNe : k^2 - q^2 = N at *
  field_simp
  rw [← hSe, ← hTe, ← hNe]
  ring

/-! ## `kernel_gamma2t_iso` -/

theorem g2tIso_form (k x k3 q : ℝ) (hk : 0 < k) (h3 : 0 < k3) (h : k3 < 2*k) (hq : 0 < q) (n1 : q ≠ k) (n3 : q ≠ k3) :
    g2tIso k x k3 q = π * (g2tI0 k (x/k - 1) k3 q + g2tI1 k (x/k - 1) k3 q * LFunc k q + g2tI3 k (x/k - 1) k3 q * LFunc k3 q +
      g2tIS k (x/k - 1) k3 q * (1 / Real.sqrt k) * triLog (k * q) (triM k k3 k q) + g2tIT k (x/k - 1) k3 q * triLog (k3 * q) (triM k k k3 q)) := by
  have hS := iso_S_pos k k3 q hk h3 h
  have hT := iso_T_pos k k3 q h3 hq
  obtain ⟨w1, w2⟩ := iso_logs k k3 q hk h3 h hq n1 n3
  have l1 : ∀ a : ℝ, 2 * Real.log |(a + q) / (a - q)| = LFunc a q := fun _ => rfl
  simp only [g2tIso, g2tIsoE, pw, pow_one, w1, w2, rpow_three_half _ (mul_pos hk hS), Real.sqrt_mul hk.le, rpow_three_half _ hT, C01_power, g2tI0, g2tI1, g2tI3,
    g2tIS, g2tIT, ← l1]
  generalize x/k - 1 = e
  generalize Real.log |(k + q) / (k - q)| = L1
  generalize Real.log |(k3 + q) / (k3 - q)| = L3
  generalize triLog (k * q) (triM k k3 k q) = ts
  generalize triLog (k3 * q) (triM k k k3 q) = tt
  have s1 := (Real.sqrt_pos.2 hS).ne'
  have s2 := (Real.sqrt_pos.2 hT).ne'
  generalize Real.sqrt (k^2*k3^2 - k3^2*q^2 + q^4) = rs at *
  generalize Real.sqrt (k^4 - 2*k^2*q^2 + k3^2*q^2 + q^4) = rt at *
  generalize hSe : k^2*k3^2 - k3^2*q^2 + q^4 = S at *
  generalize hTe : k^4 - 2*k^2*q^2 + k3^2*q^2 + q^4 = T at *
  have c1 : ∀ a b : ℝ, a * (ts * rs) / (b * (S * rs)) = a * ts / (b * S) := fun a b => by
    rw [← mul_assoc, ← mul_assoc, mul_div_mul_right _ _ s1]
  have c2 : ∀ a b : ℝ, a * (tt * rt) / (b * (T * rt)) = a * tt / (b * T) := fun a b => by
    rw [← mul_assoc, ← mul_assoc, mul_div_mul_right _ _ s2]
  have hr := (Real.sqrt_pos.2 hk).ne'
  generalize Real.sqrt k = rk at *
  have c3 : ∀ a : ℝ, a * (ts * rs) / (k * S * (rk * rs)) = a / (k * S) * (1 / rk) * ts := fun a => by field_simp
  rw [c3, c2]
  ring

theorem g2tI1_first (k e k3 q : ℝ) (hk : 0 < k) (hq : 0 < q) : g2tI1 k e k3 q =
    g2tCL1 (pw k) (pw k) (pw k3) (pw q) + g2tCL2 (pw k) (pw k) (pw k3) (pw q) + (g2tCL1D k k3 q + g2tCL2D k k3 q) * (k * e) := by
  simp only [g2tI1, g2tCL1, g2tCL2, g2tCL1D, g2tCL2D, pw]; field_simp; ring

theorem g2tI3_first (k e k3 q : ℝ) (hk : 0 < k) (h3 : 0 < k3) (hq : 0 < q) : g2tI3 k e k3 q =
    g2tCL3 (pw k) (pw k) (pw k3) (pw q) + g2tCL3D k k3 q * (k * e) := by
  simp only [g2tI3, g2tCL3, g2tCL3D, pw]; field_simp; ring

theorem g2tIT_first (k e k3 q : ℝ) (hk : 0 < k) (hq : 0 < q) (hT : k^4 - 2*k^2*q^2 + k3^2*q^2 + q^4 ≠ 0) : g2tIT k e k3 q =
    g2tCW1 (pw k) (pw k) (pw k3) (pw q) + (g2tCW1D k k3 q - g2tCW1 (pw k) (pw k) (pw k3) (pw q) * (k * (k^2 - q^2)) /
      (k^4 - 2*k^2*q^2 + k3^2*q^2 + q^4)) * (k * e) := by
  simp only [g2tIT, g2tCW1, g2tCW1D, pw]
  generalize hTe : k^4 - 2*k^2*q^2 + k3^2*q^2 + q^4 = T at *
  field_simp
  rw [← hTe]
  ring

theorem g2tIS_first (k e k3 q : ℝ) (hk : 0 < k) (hq : 0 < q) (hS : k^2*k3^2 - k3^2*q^2 + q^4 ≠ 0) : g2tIS k e k3 q =
    g2tCW2 (pw k) (pw k) (pw k3) (pw q) + g2tCW3 (pw k) (pw k) (pw k3) (pw q) + (g2tCW2D k k3 q + g2tCW3D k k3 q -
      g2tCW2 (pw k) (pw k) (pw k3) (pw q) * (k * q^2) / (k^2*k3^2 - k3^2*q^2 + q^4) -
      g2tCW3 (pw k) (pw k) (pw k3) (pw q) * (k * (k3^2 - q^2)) / (k^2*k3^2 - k3^2*q^2 + q^4)) * (k * e) := by
  simp only [g2tIS, g2tCW2, g2tCW3, g2tCW2D, g2tCW3D, pw]
  generalize hSe : k^2*k3^2 - k3^2*q^2 + q^4 = S at *
  field_simp
  rw [← hSe]
  ring

theorem g2tI0_first (k e k3 q : ℝ) (hk : 0 < k) (h3 : 0 < k3) (hq : 0 < q) (hS : k^2*k3^2 - k3^2*q^2 + q^4 ≠ 0)
    (hT : k^4 - 2*k^2*q^2 + k3^2*q^2 + q^4 ≠ 0) (hn : k^2 - q^2 ≠ 0) : g2tI0 k e k3 q =
    g2tC0 (pw k) (pw k) (pw k3) (pw q) + (g2tC0D k k3 q + g2tCL2 (pw k) (pw k) (pw k3) (pw q) * (-(4 * q) / (k^2 - q^2)) +
      g2tCW1 (pw k) (pw k) (pw k3) (pw q) * (-(4*k*k3*q) / ((k^4 - 2*k^2*q^2 + k3^2*q^2 + q^4) * (k^2 - q^2))) +
      g2tCW2 (pw k) (pw k) (pw k3) (pw q) * (4*q / (k^2*k3^2 - k3^2*q^2 + q^4)) +
      g2tCW3 (pw k) (pw k) (pw k3) (pw q) * (-(4*k^2*q) / ((k^2*k3^2 - k3^2*q^2 + q^4) * (k^2 - q^2)))) * (k * e) := by
  simp only [g2tI0, g2tCL2, g2tCW1, g2tCW2, g2tCW3, g2tC0, g2tC0D, pw]
  generalize hSe : k^2*k3^2 - k3^2*q^2 + q^4 = S at *
  generalize hTe : k^4 - 2*k^2*q^2 + k3^2*q^2 + q^4 = T at *
  generalize hNe : k^2 - q^2 = N at *
  field_simp
  rw [← hSe, ← hTe, ← hNe]
  ring

/-! ## The logarithms near `k1 = k2` -/

theorem iso_tri_deriv (k k3 q : ℝ) (hk : 0 < k) (h3 : 0 < k3) (h : k3 < 2*k) (hq : 0 < q) (n1 : q ≠ k) (n3 : q ≠ k3) :
    k^2 - q^2 ≠ 0 ∧ k3^2 - q^2 ≠ 0 ∧
    HasDerivAt (fun x => triLog (k3 * q) (triM k x k3 q)) (-(4*k*k3*q) / ((k^4 - 2*k^2*q^2 + k3^2*q^2 + q^4) * (k^2 - q^2)) -
      triLog (k3 * q) (triM k k k3 q) * (k * (k^2 - q^2)) / (k^4 - 2*k^2*q^2 + k3^2*q^2 + q^4)) k ∧
    HasDerivAt (fun x => triLog (x * q) (triM k k3 x q)) (4*q / (k^2*k3^2 - k3^2*q^2 + q^4) -
      triLog (k * q) (triM k k3 k q) * (k * q^2) / (k^2*k3^2 - k3^2*q^2 + q^4)) k ∧
    HasDerivAt (fun x => triLog (k * q) (triM x k3 k q)) (-(4*k^2*q) / ((k^2*k3^2 - k3^2*q^2 + q^4) * (k^2 - q^2)) -
      triLog (k * q) (triM k k3 k q) * (k * (k3^2 - q^2)) / (k^2*k3^2 - k3^2*q^2 + q^4)) k := by
  have hS := iso_S_pos k k3 q hk h3 h
  have hT := iso_T_pos k k3 q h3 hq
  have hN : ∀ a : ℝ, 0 < a → q ≠ a → a^2 - q^2 ≠ 0 := fun a ha hn e =>
    hn ((pow_left_inj₀ hq.le ha.le two_ne_zero).1 (sub_eq_zero.1 e).symm)
  have hk2 : HasDerivAt (fun x : ℝ => x ^ 2) (2 * k) k := by simpa using hasDerivAt_pow 2 k
  have m1 : HasDerivAt (fun x => triM k x k3 q) ((k^2 - q^2) * (2 * k)) k := ((hk2.sub_const _).const_mul _).add_const _
  have m2 : HasDerivAt (fun x => triM k k3 x q) (2 * k * q^2) k := by
    refine ((hk2.mul_const (q^2)).const_add ((k^2 - q^2) * (k3^2 - q^2))).congr_of_eventuallyEq (Filter.Eventually.of_forall fun x => ?_)
    simp only [triM]; ring
  have m3 : HasDerivAt (fun x => triM x k3 k q) (2 * k * (k3^2 - q^2)) k := ((hk2.sub_const _).mul_const _).add_const _
  have n1' := hN k hk n1
  have n3' := hN k3 h3 n3
  refine ⟨n1', n3', ?_, ?_, ?_⟩
  · have e : triM k k k3 q - (k3 * q) ^ 2 = (k^2 - q^2)^2 := by unfold triM; ring
    have hd := triLog_hasDerivAt (hasDerivAt_const k (k3 * q)) m1 (by rw [triM_T]; exact hT) (by rw [e]; exact pow_ne_zero 2 n1')
    refine hd.congr_deriv ?_
    rw [e, triM_T]
    generalize hTe : k^4 - 2*k^2*q^2 + k3^2*q^2 + q^4 = T at *
    generalize hNe : k^2 - q^2 = N at *
    field_simp
    ring
  · have e : triM k k3 k q - (k * q) ^ 2 = (k^2 - q^2) * (k3^2 - q^2) := by unfold triM; ring
    have hd := triLog_hasDerivAt ((hasDerivAt_id' k).mul_const q) m2 (by rw [triM_S]; exact hS) (by rw [e]; exact mul_ne_zero n1' n3')
    refine hd.congr_deriv ?_
    rw [e, triM_S]
    have e2 : k^2*k3^2 - k3^2*q^2 + q^4 = (k^2 - q^2) * (k3^2 - q^2) + k^2 * q^2 := by ring
    generalize hSe : k^2*k3^2 - k3^2*q^2 + q^4 = S at *
    generalize hNe : k^2 - q^2 = N at *
    generalize hMe : k3^2 - q^2 = M at *
    field_simp
    rw [e2]
    ring
  · have e : triM k k3 k q - (k * q) ^ 2 = (k^2 - q^2) * (k3^2 - q^2) := by unfold triM; ring
    have hd := triLog_hasDerivAt (hasDerivAt_const k (k * q)) m3 (by rw [triM_S]; exact hS) (by rw [e]; exact mul_ne_zero n1' n3')
    refine hd.congr_deriv ?_
    rw [e, triM_S]
    generalize hSe : k^2*k3^2 - k3^2*q^2 + q^4 = S at *
    generalize hNe : k^2 - q^2 = N at *
    generalize hMe : k3^2 - q^2 = M at *
    field_simp
    ring

/-! ## Derivative of `kernel_gamma2d_exact` -/

/-- The derivative in `k2` at `k2 = k1`, found with the rules of differentiation. -/
def g2dSlope (k k3 q : ℝ) : ℝ :=
  π * ((g2dC0D k k3 q + g2dCL2 (pw k) (pw k) (pw k3) (pw q) * (-(4 * q) / (k^2 - q^2)) +
      g2dCW1 (pw k) (pw k) (pw k3) (pw q) * (-(4*k*k3*q) / ((k^4 - 2*k^2*q^2 + k3^2*q^2 + q^4) * (k^2 - q^2))) +
      g2dCW2 (pw k) (pw k) (pw k3) (pw q) * (4*q / (k^2*k3^2 - k3^2*q^2 + q^4)) +
      g2dCW3 (pw k) (pw k) (pw k3) (pw q) * (-(4*k^2*q) / ((k^2*k3^2 - k3^2*q^2 + q^4) * (k^2 - q^2)))) +
    (g2dCL1D k k3 q + g2dCL2D k k3 q) * LFunc k q + g2dCL3D k k3 q * LFunc k3 q +
    (g2dCW2D k k3 q + g2dCW3D k k3 q - g2dCW2 (pw k) (pw k) (pw k3) (pw q) * (k * q^2) / (k^2*k3^2 - k3^2*q^2 + q^4) -
      g2dCW3 (pw k) (pw k) (pw k3) (pw q) * (k * (k3^2 - q^2)) / (k^2*k3^2 - k3^2*q^2 + q^4)) * triLog (k * q) (triM k k3 k q) +
    (g2dCW1D k k3 q - g2dCW1 (pw k) (pw k) (pw k3) (pw q) * (k * (k^2 - q^2)) / (k^4 - 2*k^2*q^2 + k3^2*q^2 + q^4)) *
      triLog (k3 * q) (triM k k k3 q))

theorem g2dExact_hasDerivAt (k k3 q : ℝ) (hk : 0 < k) (h3 : 0 < k3) (h : k3 < 2*k) (hq : 0 < q) (n1 : q ≠ k) (n3 : q ≠ k3) :
    HasDerivAt (fun x => g2dExact k x k3 q) (g2dSlope k k3 q) k := by
  obtain ⟨hN, hM, t1, t2, t3⟩ := iso_tri_deriv k k3 q hk h3 h hq n1 n3
  have hd := ((((((((g2dC0_deriv k k3 q hk h3 hq).fun_add ((g2dCL1_deriv k k3 q hk h3 hq).mul_const (LFunc k q))).fun_add
    ((g2dCL2_deriv k k3 q hk h3 hq).fun_mul (LFunc_hasDerivAt k q hN))).fun_add
    ((g2dCL3_deriv k k3 q hk h3 hq).mul_const (LFunc k3 q))).fun_add
    ((g2dCW1_deriv k k3 q hk h3 hq).fun_mul t1)).fun_add ((g2dCW2_deriv k k3 q hk h3 hq).fun_mul t2)).fun_add
    ((g2dCW3_deriv k k3 q hk h3 hq).fun_mul t3)).const_mul π)
  refine (hd.congr_deriv ?_).congr_of_eventuallyEq ?_
  · unfold g2dSlope
    ring
  · filter_upwards [lt_mem_nhds (show 0 < k from hk), lt_mem_nhds (show k - k3 < k by linarith), lt_mem_nhds (show k3 - k < k by linarith),
      gt_mem_nhds (show k < k + k3 by linarith), isOpen_ne.mem_nhds n1.symm] with x x0 x1 x2 x3 x4
    exact g2dExact_form k x k3 q ⟨hk, x0, h3, by linarith, by linarith, by linarith⟩ hq n1 (Ne.symm x4) n3

theorem g2dExact_diag (k k3 q : ℝ) (hk : 0 < k) (h3 : 0 < k3) (h : k3 < 2*k) (hq : 0 < q) (n1 : q ≠ k) (n3 : q ≠ k3) (x : ℝ) :
    g2dExact k k k3 q + g2dSlope k k3 q * (x - k) = π * (g2dI0 k (x/k - 1) k3 q + g2dI1 k (x/k - 1) k3 q * LFunc k q +
      g2dI3 k (x/k - 1) k3 q * LFunc k3 q + g2dIS k (x/k - 1) k3 q * triLog (k * q) (triM k k3 k q) +
      g2dIT k (x/k - 1) k3 q * triLog (k3 * q) (triM k k k3 q)) := by
  have hS := (iso_S_pos k k3 q hk h3 h).ne'
  have hT := (iso_T_pos k k3 q h3 hq).ne'
  obtain ⟨hN, -⟩ := iso_tri_deriv k k3 q hk h3 h hq n1 n3
  have he : k * (x/k - 1) = x - k := by field_simp
  rw [g2dExact_form k k k3 q ⟨hk, hk, h3, by linarith, by linarith, by linarith⟩ hq n1 n1 n3, g2dSlope,
    g2dI0_first k _ k3 q hk h3 hq hS hT hN, g2dI1_first k _ k3 q hk hq, g2dI3_first k _ k3 q hk h3 hq, g2dIS_first k _ k3 q hk hq hS,
    g2dIT_first k _ k3 q hk hq hT, he]
  ring

/-! ## Derivative of `kernel_gamma2t_exact` -/

/-- The derivative in `k2` at `k2 = k1`, found with the rules of differentiation. -/
def g2tSlope (k k3 q : ℝ) : ℝ :=
  π * ((g2tC0D k k3 q + g2tCL2 (pw k) (pw k) (pw k3) (pw q) * (-(4 * q) / (k^2 - q^2)) +
      g2tCW1 (pw k) (pw k) (pw k3) (pw q) * (-(4*k*k3*q) / ((k^4 - 2*k^2*q^2 + k3^2*q^2 + q^4) * (k^2 - q^2))) +
      g2tCW2 (pw k) (pw k) (pw k3) (pw q) * (4*q / (k^2*k3^2 - k3^2*q^2 + q^4)) +
      g2tCW3 (pw k) (pw k) (pw k3) (pw q) * (-(4*k^2*q) / ((k^2*k3^2 - k3^2*q^2 + q^4) * (k^2 - q^2)))) +
    (g2tCL1D k k3 q + g2tCL2D k k3 q) * LFunc k q + g2tCL3D k k3 q * LFunc k3 q +
    (g2tCW2D k k3 q + g2tCW3D k k3 q - g2tCW2 (pw k) (pw k) (pw k3) (pw q) * (k * q^2) / (k^2*k3^2 - k3^2*q^2 + q^4) -
      g2tCW3 (pw k) (pw k) (pw k3) (pw q) * (k * (k3^2 - q^2)) / (k^2*k3^2 - k3^2*q^2 + q^4)) * triLog (k * q) (triM k k3 k q) +
    (g2tCW1D k k3 q - g2tCW1 (pw k) (pw k) (pw k3) (pw q) * (k * (k^2 - q^2)) / (k^4 - 2*k^2*q^2 + k3^2*q^2 + q^4)) *
      triLog (k3 * q) (triM k k k3 q))

theorem g2tExact_hasDerivAt (k k3 q : ℝ) (hk : 0 < k) (h3 : 0 < k3) (h : k3 < 2*k) (hq : 0 < q) (n1 : q ≠ k) (n3 : q ≠ k3) :
    HasDerivAt (fun x => g2tExact k x k3 q) (g2tSlope k k3 q) k := by
  obtain ⟨hN, hM, t1, t2, t3⟩ := iso_tri_deriv k k3 q hk h3 h hq n1 n3
  have hd := ((((((((g2tC0_deriv k k3 q hk h3 hq).fun_add ((g2tCL1_deriv k k3 q hk h3 hq).mul_const (LFunc k q))).fun_add
    ((g2tCL2_deriv k k3 q hk h3 hq).fun_mul (LFunc_hasDerivAt k q hN))).fun_add
    ((g2tCL3_deriv k k3 q hk h3 hq).mul_const (LFunc k3 q))).fun_add
    ((g2tCW1_deriv k k3 q hk h3 hq).fun_mul t1)).fun_add ((g2tCW2_deriv k k3 q hk h3 hq).fun_mul t2)).fun_add
    ((g2tCW3_deriv k k3 q hk h3 hq).fun_mul t3)).const_mul π)
  refine (hd.congr_deriv ?_).congr_of_eventuallyEq ?_
  · unfold g2tSlope
    ring
  · filter_upwards [lt_mem_nhds (show 0 < k from hk), lt_mem_nhds (show k - k3 < k by linarith), lt_mem_nhds (show k3 - k < k by linarith),
      gt_mem_nhds (show k < k + k3 by linarith), isOpen_ne.mem_nhds n1.symm] with x x0 x1 x2 x3 x4
    exact g2tExact_form k x k3 q ⟨hk, x0, h3, by linarith, by linarith, by linarith⟩ hq n1 (Ne.symm x4) n3

theorem g2tExact_diag (k k3 q : ℝ) (hk : 0 < k) (h3 : 0 < k3) (h : k3 < 2*k) (hq : 0 < q) (n1 : q ≠ k) (n3 : q ≠ k3) (x : ℝ) :
    g2tExact k k k3 q + g2tSlope k k3 q * (x - k) = π * (g2tI0 k (x/k - 1) k3 q + g2tI1 k (x/k - 1) k3 q * LFunc k q +
      g2tI3 k (x/k - 1) k3 q * LFunc k3 q + g2tIS k (x/k - 1) k3 q * triLog (k * q) (triM k k3 k q) +
      g2tIT k (x/k - 1) k3 q * triLog (k3 * q) (triM k k k3 q)) := by
  have hS := (iso_S_pos k k3 q hk h3 h).ne'
  have hT := (iso_T_pos k k3 q h3 hq).ne'
  obtain ⟨hN, -⟩ := iso_tri_deriv k k3 q hk h3 h hq n1 n3
  have he : k * (x/k - 1) = x - k := by field_simp
  rw [g2tExact_form k k k3 q ⟨hk, hk, h3, by linarith, by linarith, by linarith⟩ hq n1 n1 n3, g2tSlope,
    g2tI0_first k _ k3 q hk h3 hq hS hT hN, g2tI1_first k _ k3 q hk hq, g2tI3_first k _ k3 q hk h3 hq, g2tIS_first k _ k3 q hk hq hS,
    g2tIT_first k _ k3 q hk hq hT, he]
  ring

end

end Verif
