import Verif.Model.Variance
import Verif.Proofs.Axial
import Mathlib.MeasureTheory.Measure.Lebesgue.VolumeOfBalls
import Mathlib.MeasureTheory.Integral.Average
import Mathlib.Analysis.SpecialFunctions.Integrals.Basic

/-!
# C70 – the variance in spheres is that of the smoothed field
-/

namespace Verif

open MeasureTheory Real Filter Topology

theorem cos_mu (x : ℝ) (hx : x ≠ 0) : ∫ mu in (-1 : ℝ)..1, Real.cos (x * mu) = 2 * Real.sin x / x := by
  rw [intervalIntegral.integral_comp_mul_left (fun y => Real.cos y) hx, integral_cos]
  simp only [mul_one, mul_neg, Real.sin_neg, smul_eq_mul]
  field_simp
  ring

theorem radial_int (k a r : ℝ) (hk : 0 < k) (ha : 0 < a) (har : a < r) :
    ∫ s in a..r, s ^ 2 * (2 * Real.sin (k * s) / (k * s)) =
      2 / k ^ 3 * ((Real.sin (k * r) - k * r * Real.cos (k * r)) - (Real.sin (k * a) - k * a * Real.cos (k * a))) := by
  have hd (s : ℝ) : HasDerivAt (fun s => 2 / k ^ 3 * (Real.sin (k * s) - k * s * Real.cos (k * s))) (2 / k * (s * Real.sin (k * s))) s := by
    have h0 := (hasDerivAt_id s).const_mul k
    have h1 := (h0.sin.sub (h0.mul h0.cos)).const_mul (2 / k ^ 3)
    refine h1.congr_deriv ?_
    simp only [id, mul_one]
    field_simp
    ring
  have e : ∀ s ∈ Set.uIcc a r, s ^ 2 * (2 * Real.sin (k * s) / (k * s)) = 2 / k * (s * Real.sin (k * s)) := by
    intro s hs
    rw [Set.uIcc_of_le har.le] at hs
    have : 0 < s := ha.trans_le hs.1
    field_simp
  rw [intervalIntegral.integral_congr e, intervalIntegral.integral_eq_sub_of_hasDerivAt (fun s _ => hd s)
    (Continuous.intervalIntegrable (by fun_prop) _ _)]
  ring

theorem shell_cos (k : E3) (hk : k ≠ 0) (a r : ℝ) (ha : 0 < a) (har : a < r) :
    ∫ x in {x : E3 | a ≤ ‖x‖ ∧ ‖x‖ ≤ r}, Real.cos (inner ℝ k x) = 4 * π / ‖k‖ ^ 3 *
      ((Real.sin (‖k‖ * r) - ‖k‖ * r * Real.cos (‖k‖ * r)) - (Real.sin (‖k‖ * a) - ‖k‖ * a * Real.cos (‖k‖ * a))) := by
  have hκ : 0 < ‖k‖ := norm_pos_iff.2 hk
  have hK : IsCompact {x : E3 | a ≤ ‖x‖ ∧ ‖x‖ ≤ r} := by
    refine Metric.isCompact_of_isClosed_isBounded ?_ ?_
    · exact (isClosed_le continuous_const continuous_norm).inter (isClosed_le continuous_norm continuous_const)
    · exact (Metric.isBounded_closedBall (x := (0 : E3)) (r := r)).subset fun x hx => by simpa using hx.2
  have hc : Continuous fun x : E3 => Real.cos (inner ℝ k x) := by fun_prop
  have e : ∀ x ∈ {x : E3 | a ≤ ‖x‖ ∧ ‖x‖ ≤ r}, Real.cos (inner ℝ k x) = Real.cos (‖k‖ * ‖x‖ * (inner ℝ k x / (‖k‖ * ‖x‖))) := by
    intro x hx
    have : 0 < ‖x‖ := ha.trans_le hx.1
    rw [mul_div_cancel₀ _ (by positivity)]
  have hi : IntegrableOn (fun x : E3 => Real.cos (‖k‖ * ‖x‖ * (inner ℝ k x / (‖k‖ * ‖x‖)))) {x : E3 | a ≤ ‖x‖ ∧ ‖x‖ ≤ r} :=
    (hc.continuousOn.integrableOn_compact hK).congr_fun e (shell_measurable a r)
  rw [setIntegral_congr_fun (shell_measurable a r) e, integral_axis_dir (fun s mu => Real.cos (‖k‖ * s * mu)) k hk a r ha har hi]
  have e2 : ∀ s ∈ Set.uIcc a r, s ^ 2 * ∫ mu in (-1 : ℝ)..1, Real.cos (‖k‖ * s * mu) = s ^ 2 * (2 * Real.sin (‖k‖ * s) / (‖k‖ * s)) := by
    intro s hs
    rw [Set.uIcc_of_le har.le] at hs
    have : 0 < s := ha.trans_le hs.1
    rw [cos_mu _ (by positivity)]
  rw [intervalIntegral.integral_congr e2, radial_int _ _ _ hκ ha har]
  ring

theorem ball_cos (k : E3) (hk : k ≠ 0) (r : ℝ) (hr : 0 < r) :
    ∫ x in Metric.closedBall (0 : E3) r, Real.cos (inner ℝ k x) = 4 * π / ‖k‖ ^ 3 * (Real.sin (‖k‖ * r) - ‖k‖ * r * Real.cos (‖k‖ * r)) := by
  have hc : Continuous fun x : E3 => Real.cos (inner ℝ k x) := by fun_prop
  let u : ℕ → ℝ := fun n => r / (n + 2)
  have hu (n : ℕ) : 0 < u n := by positivity
  have hur (n : ℕ) : u n < r := by
    rw [div_lt_iff₀ (by positivity)]
    have : (0 : ℝ) ≤ n := by positivity
    nlinarith
  have hut : Tendsto u atTop (𝓝 0) := by
    have h1 := tendsto_const_div_atTop_nhds_zero_nat r
    have h2 := h1.comp (tendsto_add_atTop_nat 2)
    refine h2.congr fun n => ?_
    simp [u]
  have hmono : Monotone fun n => {x : E3 | u n ≤ ‖x‖ ∧ ‖x‖ ≤ r} := by
    intro n m hnm x hx
    refine ⟨le_trans ?_ hx.1, hx.2⟩
    simp only [u]
    gcongr
  have hU : ⋃ n, {x : E3 | u n ≤ ‖x‖ ∧ ‖x‖ ≤ r} = Metric.closedBall (0 : E3) r \ {0} := by
    ext x
    simp only [Set.mem_iUnion, Set.mem_ofPred_eq, Set.mem_sdiff, Metric.mem_closedBall, dist_zero_right, Set.mem_singleton_iff]
    constructor
    · rintro ⟨n, h1, h2⟩
      exact ⟨h2, norm_pos_iff.1 ((hu n).trans_le h1)⟩
    · rintro ⟨h1, h2⟩
      obtain ⟨n, hn⟩ := (hut.eventually (gt_mem_nhds (norm_pos_iff.2 h2))).exists
      exact ⟨n, hn.le, h1⟩
  have hint : IntegrableOn (fun x : E3 => Real.cos (inner ℝ k x)) (Metric.closedBall (0 : E3) r) :=
    hc.continuousOn.integrableOn_compact (isCompact_closedBall 0 r)
  have hlim := tendsto_setIntegral_of_monotone (fun n => shell_measurable (u n) r) hmono (hU ▸ hint.mono_set Set.sdiff_subset)
  rw [hU] at hlim
  have hae : (Metric.closedBall (0 : E3) r \ {0} : Set E3) =ᵐ[volume] Metric.closedBall (0 : E3) r := sdiff_null_ae_eq_self (by simp)
  rw [setIntegral_congr_set hae] at hlim
  refine tendsto_nhds_unique hlim ?_
  simp only [shell_cos k hk _ r (hu _) (hur _)]
  have hcont : Continuous fun a : ℝ => 4 * π / ‖k‖ ^ 3 *
      ((Real.sin (‖k‖ * r) - ‖k‖ * r * Real.cos (‖k‖ * r)) - (Real.sin (‖k‖ * a) - ‖k‖ * a * Real.cos (‖k‖ * a))) := by fun_prop
  have := (hcont.tendsto 0).comp hut
  simpa [Function.comp_def] using this

theorem volume_closedBall3 (r : ℝ) (hr : 0 < r) : volume.real (Metric.closedBall (0 : E3) r) = 4 * π / 3 * r ^ 3 := by
  rw [Measure.real, EuclideanSpace.volume_closedBall_fin_three, ENNReal.toReal_mul, ENNReal.toReal_pow, ENNReal.toReal_ofReal hr.le,
    ENNReal.toReal_ofReal (by positivity)]
  ring

/-- C70: the window of `sigmar` is the average of the wave over the sphere, that is, the Fourier transform of the normalised sphere. -/
theorem C70_window (k : E3) (hk : k ≠ 0) (r : ℝ) (hr : 0 < r) :
    topHat (‖k‖ * r) = ⨍ x in Metric.closedBall (0 : E3) r, Real.cos (inner ℝ k x) := by
  have hκ : 0 < ‖k‖ := norm_pos_iff.2 hk
  rw [setAverage_eq, ball_cos k hk r hr, volume_closedBall3 r hr, topHat, smul_eq_mul]
  have := Real.pi_pos
  field_simp

example : topHat (‖(!₂[3, 0, 4] : E3)‖ * 2) = ⨍ x in Metric.closedBall (0 : E3) 2, Real.cos (inner ℝ (!₂[3, 0, 4] : E3) x) :=
  C70_window _ (fun h => by simpa using congrArg (fun v : E3 => v 0) h) 2 (by norm_num)

theorem exists_norm (κ : ℝ) (h : 0 < κ) : ∃ k : E3, k ≠ 0 ∧ ‖k‖ = κ := by
  refine ⟨!₂[κ, 0, 0], fun h0 => ?_, ?_⟩
  · have : κ = 0 := by simpa using congrArg (fun v : E3 => v 0) h0
    exact h.ne' this
  · rw [EuclideanSpace.norm_eq]
    simp [Fin.sum_univ_three, Real.sqrt_sq_eq_abs, abs_of_pos h]

/-- C70: the window does not exceed one and is one up to the square of the phase across the sphere. -/
theorem C70_window_bound (x : ℝ) (hx : 0 < x) : |topHat x| ≤ 1 ∧ 1 - x ^ 2 / 2 ≤ topHat x := by
  obtain ⟨k, hk, hn⟩ := exists_norm x hx
  have e := C70_window k hk 1 one_pos
  rw [hn, mul_one, setAverage_eq, smul_eq_mul] at e
  have hv := volume_closedBall3 1 one_pos
  have hV : 0 < volume.real (Metric.closedBall (0 : E3) 1) := by rw [hv]; positivity
  have hc : Continuous fun x : E3 => Real.cos (inner ℝ k x) := by fun_prop
  have hint : IntegrableOn (fun x : E3 => Real.cos (inner ℝ k x)) (Metric.closedBall (0 : E3) 1) :=
    hc.continuousOn.integrableOn_compact (isCompact_closedBall 0 1)
  have hconst (c : ℝ) : ∫ _ in Metric.closedBall (0 : E3) 1, c = volume.real (Metric.closedBall (0 : E3) 1) * c := by
    rw [setIntegral_const, smul_eq_mul]
  have hci (c : ℝ) : IntegrableOn (fun _ : E3 => c) (Metric.closedBall (0 : E3) 1) :=
    continuous_const.continuousOn.integrableOn_compact (isCompact_closedBall 0 1)
  have up : ∫ x in Metric.closedBall (0 : E3) 1, Real.cos (inner ℝ k x) ≤ volume.real (Metric.closedBall (0 : E3) 1) * 1 := by
    rw [← hconst]
    exact setIntegral_mono hint (hci 1) fun y => Real.cos_le_one _
  have lo1 : volume.real (Metric.closedBall (0 : E3) 1) * (-1) ≤ ∫ x in Metric.closedBall (0 : E3) 1, Real.cos (inner ℝ k x) := by
    rw [← hconst]
    exact setIntegral_mono (hci (-1)) hint fun y => Real.neg_one_le_cos _
  have lo2 : volume.real (Metric.closedBall (0 : E3) 1) * (1 - x ^ 2 / 2) ≤ ∫ x in Metric.closedBall (0 : E3) 1, Real.cos (inner ℝ k x) := by
    rw [← hconst]
    refine setIntegral_mono_on (hci _) hint measurableSet_closedBall fun y hy => ?_
    have h1 := Real.one_sub_sq_div_two_le_cos (x := inner ℝ k y)
    have h2 : |inner ℝ k y| ≤ x := by
      have h3 := abs_real_inner_le_norm k y
      have h4 : ‖y‖ ≤ 1 := by simpa using hy
      rw [hn] at h3
      nlinarith
    have h5 : (inner ℝ k y) ^ 2 ≤ x ^ 2 := sq_le_sq' (abs_le.1 h2).1 (abs_le.1 h2).2
    linarith
  rw [e, ← div_eq_inv_mul]
  refine ⟨abs_le.2 ⟨?_, ?_⟩, ?_⟩
  · rw [le_div_iff₀ hV]; linarith
  · rw [div_le_iff₀ hV]; linarith
  · rw [le_div_iff₀ hV]; linarith

example : |topHat (1 / 2)| ≤ 1 ∧ 1 - (1 / 2) ^ 2 / 2 ≤ topHat (1 / 2) := C70_window_bound _ (by norm_num)

/-- Ascending modes: the first `n` values of `x` do not decrease. -/
def AscendingTo (n : ℕ) (x : ℕ → ℝ) : Prop := ∀ j, j + 1 < n → x j ≤ x (j + 1)

theorem ascendingTo_le {n : ℕ} {x : ℕ → ℝ} (h : AscendingTo n x) {i j : ℕ} (hij : i ≤ j) (hj : j < n) : x i ≤ x j := by
  induction j, hij using Nat.le_induction with
  | base => exact le_rfl
  | succ j hij ih => exact (ih (by omega)).trans (h j hj)

/-- The trapezoid rule converges for every continuous integrand as the largest step of the table shrinks. -/
theorem trapz_limit (F : ℝ → ℝ) (a b : ℝ) (hab : a ≤ b) (hF : ContinuousOn F (Set.Icc a b)) (ε : ℝ) (hε : 0 < ε) :
    ∃ δ > 0, ∀ (n : ℕ) (x : ℕ → ℝ), 1 ≤ n → AscendingTo n x → (∀ j, j + 1 < n → x (j + 1) - x j < δ) → x 0 = a → x (n - 1) = b →
      |trapz n (fun j => F (x j)) x - ∫ q in a..b, F q| < ε := by
  have hη : 0 < ε / (b - a + 1) := div_pos hε (by linarith)
  set η := ε / (b - a + 1) with hηd
  obtain ⟨δ, hδ, hu⟩ := Metric.uniformContinuousOn_iff.1 (isCompact_Icc.uniformContinuousOn_of_continuous hF) η hη
  refine ⟨δ, hδ, fun n x hn hx hs h0 hl => ?_⟩
  have hmem (j : ℕ) (hj : j < n) : x j ∈ Set.Icc a b :=
    ⟨h0 ▸ ascendingTo_le hx (Nat.zero_le j) hj, hl ▸ ascendingTo_le hx (by omega) (by omega)⟩
  have hsub (j : ℕ) (hj : j + 1 < n) : Set.Icc (x j) (x (j + 1)) ⊆ Set.Icc a b :=
    Set.Icc_subset_Icc (hmem j (by omega)).1 (hmem (j + 1) hj).2
  have hii (j : ℕ) (hj : j + 1 < n) : IntervalIntegrable F volume (x j) (x (j + 1)) :=
    ContinuousOn.intervalIntegrable (by rw [Set.uIcc_of_le (hx j hj)]; exact hF.mono (hsub j hj))
  have hstep (j : ℕ) (hj : j + 1 < n) :
      |(x (j + 1) - x j) * (F (x (j + 1)) + F (x j)) / 2 - ∫ q in x j..x (j + 1), F q| ≤ η * (x (j + 1) - x j) := by
    have e : (x (j + 1) - x j) * (F (x (j + 1)) + F (x j)) / 2 - ∫ q in x j..x (j + 1), F q =
        ∫ q in x j..x (j + 1), ((F (x (j + 1)) + F (x j)) / 2 - F q) := by
      rw [intervalIntegral.integral_sub intervalIntegrable_const (hii j hj), intervalIntegral.integral_const, smul_eq_mul]
      ring
    rw [e]
    have hb := intervalIntegral.norm_integral_le_of_norm_le_const (a := x j) (b := x (j + 1)) (C := η)
      (f := fun q => (F (x (j + 1)) + F (x j)) / 2 - F q) ?_
    · rwa [Real.norm_eq_abs, abs_of_nonneg (sub_nonneg.2 (hx j hj))] at hb
    · intro q hq
      rw [Set.uIoc_of_le (hx j hj)] at hq
      have hq' : q ∈ Set.Icc (x j) (x (j + 1)) := ⟨hq.1.le, hq.2⟩
      have hd := hs j hj
      have c1 := hu (x j) (hmem j (by omega)) q (hsub j hj hq') (by rw [Real.dist_eq, abs_lt]; constructor <;> linarith [hq.1, hq.2])
      have c2 := hu (x (j + 1)) (hmem (j + 1) hj) q (hsub j hj hq') (by rw [Real.dist_eq, abs_lt]; constructor <;> linarith [hq.1, hq.2])
      rw [Real.dist_eq, abs_lt] at c1 c2
      rw [Real.norm_eq_abs, abs_le]
      constructor <;> linarith [c1.1, c1.2, c2.1, c2.2]
  have hsum := intervalIntegral.sum_integral_adjacent_intervals (f := F) (μ := volume) (a := x) (n := n - 1) fun j hj => hii j (by omega)
  rw [h0, hl] at hsum
  rw [← hsum, trapz, ← Finset.sum_sub_distrib]
  have htel : ∑ j ∈ Finset.range (n - 1), η * (x (j + 1) - x j) = η * (b - a) := by
    rw [← Finset.mul_sum, Finset.sum_range_sub, h0, hl]
  calc _ ≤ ∑ j ∈ Finset.range (n - 1), |(x (j + 1) - x j) * (F (x (j + 1)) + F (x j)) / 2 - ∫ q in x j..x (j + 1), F q| :=
        Finset.abs_sum_le_sum_abs _ _
    _ ≤ ∑ j ∈ Finset.range (n - 1), η * (x (j + 1) - x j) :=
        Finset.sum_le_sum fun j hj => hstep j (by have := Finset.mem_range.1 hj; omega)
    _ = η * (b - a) := htel
    _ < η * (b - a + 1) := by nlinarith
    _ = ε := by rw [hηd]; field_simp [show b - a + 1 ≠ 0 by linarith]

theorem trapz_mono (n : ℕ) (y z x : ℕ → ℝ) (hx : AscendingTo n x) (h : ∀ j < n, y j ≤ z j) : trapz n y x ≤ trapz n z x := by
  refine Finset.sum_le_sum fun j hj => ?_
  have hj' := Finset.mem_range.1 hj
  have h1 := hx j (by omega)
  have h2 := h j (by omega)
  have h3 := h (j + 1) (by omega)
  have h4 := mul_le_mul_of_nonneg_left (add_le_add h3 h2) (sub_nonneg.2 h1)
  linarith

theorem trapz_smul (n : ℕ) (c : ℝ) (y x : ℕ → ℝ) : trapz n (fun j => c * y j) x = c * trapz n y x := by
  rw [trapz, trapz, Finset.mul_sum]
  exact Finset.sum_congr rfl fun j _ => by ring

theorem sigmar2_nonneg (n : ℕ) (k pk : ℕ → ℝ) (r : ℝ) (hk : AscendingTo n k) (hp : ∀ j < n, 0 ≤ pk j) : 0 ≤ sigmar2 n k pk r := by
  have h := trapz_mono n (fun _ => 0) (fun j => pk j * (topHat (k j * r) * k j) ^ 2) k hk fun j hj => mul_nonneg (hp j hj) (sq_nonneg _)
  have h0 : trapz n (fun _ => 0) k = 0 := by simp [trapz]
  rw [sigmar2]
  exact mul_nonneg (by positivity) (h0 ▸ h)

/-- Specification: the variance of the field with spectrum `P`, limited to modes between `a` and `b`, averaged over a sphere of radius
`r`: the spectrum is multiplied by the square of the average of the wave over the sphere and summed over all modes. -/
noncomputable def varianceSpec (P : ℝ → ℝ) (a b r : ℝ) : ℝ :=
  ∫ q in {q : E3 | a ≤ ‖q‖ ∧ ‖q‖ ≤ b}, P ‖q‖ * (⨍ x in Metric.closedBall (0 : E3) r, Real.cos (inner ℝ q x)) ^ 2 / (2 * π) ^ 3

theorem topHat_continuousOn (a b r : ℝ) (ha : 0 < a) (hr : 0 < r) : ContinuousOn (fun q => topHat (q * r)) (Set.Icc a b) := by
  unfold topHat
  refine ContinuousOn.div (by fun_prop) (by fun_prop) fun q hq => ?_
  have : 0 < q := ha.trans_le hq.1
  positivity

theorem varianceSpec_radial (P : ℝ → ℝ) (a b r : ℝ) (ha : 0 < a) (hab : a < b) (hr : 0 < r) (hP : ContinuousOn P (Set.Icc a b)) :
    varianceSpec P a b r = 1 / 2 / π ^ 2 * ∫ q in a..b, P q * (topHat (q * r) * q) ^ 2 := by
  have e : ∀ q ∈ {q : E3 | a ≤ ‖q‖ ∧ ‖q‖ ≤ b}, P ‖q‖ * (⨍ x in Metric.closedBall (0 : E3) r, Real.cos (inner ℝ q x)) ^ 2 / (2 * π) ^ 3 =
      (fun s (_ : ℝ) => P s * topHat (s * r) ^ 2 / (2 * π) ^ 3) ‖q‖ (q 2 / ‖q‖) := by
    intro q hq
    simp only
    rw [C70_window q (norm_pos_iff.1 (ha.trans_le hq.1)) r hr]
  have hK : IsCompact {x : E3 | a ≤ ‖x‖ ∧ ‖x‖ ≤ b} := by
    refine Metric.isCompact_of_isClosed_isBounded ?_ ?_
    · exact (isClosed_le continuous_const continuous_norm).inter (isClosed_le continuous_norm continuous_const)
    · exact (Metric.isBounded_closedBall (x := (0 : E3)) (r := b)).subset fun x hx => by simpa using hx.2
  have hc : ContinuousOn (fun s => P s * topHat (s * r) ^ 2 / (2 * π) ^ 3) (Set.Icc a b) :=
    (hP.mul ((topHat_continuousOn a b r ha hr).pow 2)).div_const _
  have hi : IntegrableOn (fun q : E3 => (fun s (_ : ℝ) => P s * topHat (s * r) ^ 2 / (2 * π) ^ 3) ‖q‖ (q 2 / ‖q‖))
      {q : E3 | a ≤ ‖q‖ ∧ ‖q‖ ≤ b} :=
    (hc.comp continuous_norm.continuousOn fun q hq => hq).integrableOn_compact hK
  rw [varianceSpec, setIntegral_congr_fun (shell_measurable a b) e, integral_axis (fun s _ => P s * topHat (s * r) ^ 2 / (2 * π) ^ 3) a b ha hab hi, ← intervalIntegral.integral_const_mul,
    ← intervalIntegral.integral_const_mul]
  refine intervalIntegral.integral_congr fun q _ => ?_
  simp only [intervalIntegral.integral_const, smul_eq_mul]
  have := Real.pi_pos
  field_simp
  ring

/-- C70: the square of `sigmar` tends to the variance of the field averaged over spheres as the table is refined, for every continuous
non-negative spectrum. -/
theorem C70_sigmar_limit (P : ℝ → ℝ) (a b r : ℝ) (ha : 0 < a) (hab : a < b) (hr : 0 < r) (hP : ContinuousOn P (Set.Icc a b))
    (h0 : ∀ q ∈ Set.Icc a b, 0 ≤ P q) (ε : ℝ) (hε : 0 < ε) :
    ∃ δ > 0, ∀ (t : Terms) (pk : ℕ → ℝ), 1 ≤ (t.get "k").length → AscendingTo (t.get "k").length (t.val "k") →
      (∀ j, j + 1 < (t.get "k").length → t.val "k" (j + 1) - t.val "k" j < δ) → t.val "k" 0 = a →
      t.val "k" ((t.get "k").length - 1) = b → (∀ j < (t.get "k").length, pk j = P (t.val "k" j)) →
      |t.sigmar pk r ^ 2 - varianceSpec P a b r| < ε := by
  have hc : ContinuousOn (fun q => P q * (topHat (q * r) * q) ^ 2) (Set.Icc a b) :=
    hP.mul (((topHat_continuousOn a b r ha hr).mul continuousOn_id).pow 2)
  obtain ⟨δ, hδ, h⟩ := trapz_limit _ a b hab.le hc (ε * (2 * π ^ 2)) (by positivity)
  refine ⟨δ, hδ, fun t pk h1 hx hs hf hl hpk => ?_⟩
  have hmem (j : ℕ) (hj : j < (t.get "k").length) : t.val "k" j ∈ Set.Icc a b :=
    ⟨hf ▸ ascendingTo_le hx (Nat.zero_le j) hj, hl ▸ ascendingTo_le hx (by omega) (by omega)⟩
  have := h _ _ h1 hx hs hf hl
  have e : trapz (t.get "k").length (fun j => pk j * (topHat (t.val "k" j * r) * t.val "k" j) ^ 2) (t.val "k") =
      trapz (t.get "k").length (fun j => P (t.val "k" j) * (topHat (t.val "k" j * r) * t.val "k" j) ^ 2) (t.val "k") := by
    refine Finset.sum_congr rfl fun j hj => ?_
    have hj' := Finset.mem_range.1 hj
    simp only [hpk j (by omega), hpk (j + 1) (by omega)]
  rw [Terms.sigmar, Real.sq_sqrt (sigmar2_nonneg _ _ _ _ hx fun j hj => hpk j hj ▸ h0 _ (hmem j hj)), sigmar2,
    varianceSpec_radial P a b r ha hab hr hP, e, ← mul_sub, abs_mul, abs_of_pos (by positivity : (0 : ℝ) < 1 / 2 / π ^ 2)]
  calc _ < 1 / 2 / π ^ 2 * (ε * (2 * π ^ 2)) := mul_lt_mul_of_pos_left this (by positivity)
    _ = ε := by have := Real.pi_pos; field_simp

example : ∃ δ > 0, ∀ (t : Terms) (pk : ℕ → ℝ), 1 ≤ (t.get "k").length → AscendingTo (t.get "k").length (t.val "k") →
    (∀ j, j + 1 < (t.get "k").length → t.val "k" (j + 1) - t.val "k" j < δ) → t.val "k" 0 = 1 / 100 →
    t.val "k" ((t.get "k").length - 1) = 1 → (∀ j < (t.get "k").length, pk j = Real.exp (-t.val "k" j)) →
    |t.sigmar pk 8 ^ 2 - varianceSpec (fun q => Real.exp (-q)) (1 / 100) 1 8| < 1 / 1000 :=
  C70_sigmar_limit _ _ _ _ (by norm_num) (by norm_num) (by norm_num) (by fun_prop) (fun q _ => (Real.exp_pos _).le) _ (by norm_num)

/-- C70: smoothing does not increase the variance of a non-negative spectrum, and it leaves it unchanged up to the square of the phase of
the last mode across the sphere. -/
theorem C70_sigmar_bound (n : ℕ) (k pk : ℕ → ℝ) (r K : ℝ) (hr : 0 < r) (hx : AscendingTo n k) (hk : ∀ j < n, 0 < k j ∧ k j ≤ K)
    (hp : ∀ j < n, 0 ≤ pk j) : (1 - (K * r) ^ 2) * (1 / 2 / π ^ 2 * trapz n (fun j => pk j * k j ^ 2) k) ≤ sigmar2 n k pk r ∧
      sigmar2 n k pk r ≤ 1 / 2 / π ^ 2 * trapz n (fun j => pk j * k j ^ 2) k := by
  have hw (j : ℕ) (hj : j < n) : 1 - (K * r) ^ 2 ≤ topHat (k j * r) ^ 2 ∧ topHat (k j * r) ^ 2 ≤ 1 := by
    obtain ⟨h1, h2⟩ := hk j hj
    have hx0 : 0 < k j * r := mul_pos h1 hr
    obtain ⟨w1, w2⟩ := C70_window_bound _ hx0
    have hle : (k j * r) ^ 2 ≤ (K * r) ^ 2 := pow_le_pow_left₀ hx0.le (mul_le_mul_of_nonneg_right h2 hr.le) 2
    refine ⟨?_, (sq_le_one_iff_abs_le_one _).2 w1⟩
    nlinarith [sq_nonneg (topHat (k j * r) - 1), abs_le.1 w1]
  have hpi : 0 < 1 / 2 / π ^ 2 := by positivity
  constructor
  · rw [sigmar2, mul_left_comm, ← trapz_smul]
    refine mul_le_mul_of_nonneg_left (trapz_mono _ _ _ _ hx fun j hj => ?_) hpi.le
    have := mul_le_mul_of_nonneg_left (hw j hj).1 (mul_nonneg (hp j hj) (sq_nonneg (k j)))
    nlinarith
  · refine mul_le_mul_of_nonneg_left (trapz_mono _ _ _ _ hx fun j hj => ?_) hpi.le
    have := mul_le_mul_of_nonneg_left (hw j hj).2 (mul_nonneg (hp j hj) (sq_nonneg (k j)))
    nlinarith

example : sigmar2 3 (fun j => (j + 1 : ℝ) / 10) (fun _ => 100) 1 ≤
    1 / 2 / π ^ 2 * trapz 3 (fun j => 100 * ((j + 1 : ℝ) / 10) ^ 2) (fun j => (j + 1 : ℝ) / 10) :=
  (C70_sigmar_bound 3 _ _ 1 1 one_pos (fun j _ => by push_cast; linarith)
    (fun j hj => ⟨by positivity, by
      have : (j : ℝ) + 1 ≤ 3 := by exact_mod_cast hj
      linarith⟩) (fun _ _ => by norm_num)).2

/-- C70: `sigmar` and `sigmav` of the linear spectrum are proportional to the growth factor. -/
theorem C70_growth (t : Terms) (D r : ℝ) :
    t.sigmar (Terms.pkOfLin t D) r = |D| * t.sigmar (Terms.pkOfLin t 1) r ∧ t.sigmav (Terms.pkOfLin t D) = |D| * t.sigmav (Terms.pkOfLin t 1) := by
  have h1 : sigmar2 (t.get "k").length (t.val "k") (Terms.pkOfLin t D) r = D ^ 2 * sigmar2 (t.get "k").length (t.val "k") (Terms.pkOfLin t 1) r := by
    rw [sigmar2, sigmar2, mul_left_comm, ← trapz_smul (t.get "k").length (D ^ 2)]
    simp only [Terms.pkOfLin, Terms.scaleFactor, one_pow, one_mul, mul_one, mul_assoc]
  have h2 : trapz (t.get "k").length (Terms.pkOfLin t D) (t.val "k") = D ^ 2 * trapz (t.get "k").length (Terms.pkOfLin t 1) (t.val "k") := by
    rw [← trapz_smul]
    simp only [Terms.pkOfLin, Terms.scaleFactor, one_pow, one_mul, mul_one]
    rfl
  constructor
  · rw [Terms.sigmar, Terms.sigmar, h1, Real.sqrt_mul (sq_nonneg D), Real.sqrt_sq_eq_abs]
  · rw [Terms.sigmav, Terms.sigmav, h2, mul_left_comm, Real.sqrt_mul (sq_nonneg D), Real.sqrt_sq_eq_abs]

/-- C70: the variance does not depend on the unit of length. -/
theorem C70_units (n : ℕ) (k pk : ℕ → ℝ) (r u : ℝ) (hu : 0 < u) :
    sigmar2 n (fun j => u * k j) (fun j => pk j / u ^ 3) (r / u) = sigmar2 n k pk r := by
  have e (j : ℕ) : u * k j * (r / u) = k j * r := by field_simp
  simp only [sigmar2, trapz, e]
  congr 1
  refine Finset.sum_congr rfl fun j _ => ?_
  field_simp

/-- A container of three modes: the linear spectrum grown by two. -/
example : (Terms.mk [("k", [1, 2, 4]), ("pk", [3, 2, 1])]).sigma8 (Terms.pkOfLin ⟨[("k", [1, 2, 4]), ("pk", [3, 2, 1])]⟩ 2) =
    2 * (Terms.mk [("k", [1, 2, 4]), ("pk", [3, 2, 1])]).sigma8 (Terms.pkOfLin ⟨[("k", [1, 2, 4]), ("pk", [3, 2, 1])]⟩ 1) := by
  simpa [Terms.sigma8] using (C70_growth ⟨[("k", [1, 2, 4]), ("pk", [3, 2, 1])]⟩ 2 8).1

example : sigmar2 3 (fun j => 2 * (j + 1 : ℝ)) (fun j => (j + 5 : ℝ) / 2 ^ 3) (8 / 2) = sigmar2 3 (fun j => (j + 1 : ℝ)) (fun j => j + 5) 8 :=
  C70_units 3 _ _ 8 2 two_pos

end Verif
