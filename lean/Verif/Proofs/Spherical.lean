import Verif.Props.ThirdOrder
import Mathlib.MeasureTheory.Function.Jacobian
import Mathlib.MeasureTheory.Measure.Haar.InnerProductSpace
import Mathlib.LinearAlgebra.Matrix.Determinant.Basic
import Mathlib.Analysis.SpecialFunctions.Trigonometric.Angle

/-!
# Spherical coordinates with logarithmic radius, as a change of variables from the unit cube
-/

namespace Verif

open MeasureTheory

/-- Radius, polar angle and azimuth scaled to the unit cube: `r = a e^{L u₀}`, `θ = π u₁`, `φ = 2π u₂`. -/
noncomputable def sph (a L : ℝ) (u : Fin 3 → ℝ) : Fin 3 → ℝ :=
  ![a * Real.exp (L * u 0) * Real.sin (Real.pi * u 1) * Real.cos (2 * Real.pi * u 2),
    a * Real.exp (L * u 0) * Real.sin (Real.pi * u 1) * Real.sin (2 * Real.pi * u 2),
    a * Real.exp (L * u 0) * Real.cos (Real.pi * u 1)]

/-- Matrix of partial derivatives of `sph`. -/
noncomputable def sphMat (a L : ℝ) (u : Fin 3 → ℝ) : Matrix (Fin 3) (Fin 3) ℝ :=
  let r := a * Real.exp (L * u 0)
  let s := Real.sin (Real.pi * u 1)
  let c := Real.cos (Real.pi * u 1)
  let S := Real.sin (2 * Real.pi * u 2)
  let C := Real.cos (2 * Real.pi * u 2)
  !![L * r * s * C, r * Real.pi * c * C, -(r * s * (2 * Real.pi) * S);
     L * r * s * S, r * Real.pi * c * S, r * s * (2 * Real.pi) * C;
     L * r * c, -(r * Real.pi * s), 0]

theorem sphMat_det (a L : ℝ) (u : Fin 3 → ℝ) : (sphMat a L u).det =
    L * Real.pi * (2 * Real.pi) * (a * Real.exp (L * u 0)) ^ 3 * Real.sin (Real.pi * u 1) := by
  rw [Matrix.det_fin_three]
  simp only [sphMat, Matrix.of_apply, Matrix.cons_val', Matrix.cons_val, Matrix.cons_val_fin_one]
  have h1 := Real.sin_sq_add_cos_sq (Real.pi * u 1)
  have h2 := Real.sin_sq_add_cos_sq (2 * Real.pi * u 2)
  generalize Real.sin (Real.pi * u 1) = s at *
  generalize Real.cos (Real.pi * u 1) = c at *
  generalize Real.sin (2 * Real.pi * u 2) = S at *
  generalize Real.cos (2 * Real.pi * u 2) = C at *
  generalize a * Real.exp (L * u 0) = r at *
  linear_combination (L * r ^ 3 * s * Real.pi * (2 * Real.pi)) * (h1 * (S ^ 2 + C ^ 2) + h2)

theorem sph_hasFDerivAt (a L : ℝ) (u : Fin 3 → ℝ) :
    HasFDerivAt (sph a L) (LinearMap.toContinuousLinearMap (Matrix.toLin' (sphMat a L u))) u := by
  have p : ∀ i, HasFDerivAt (fun v : Fin 3 → ℝ => v i) (ContinuousLinearMap.proj (R := ℝ) (φ := fun _ : Fin 3 => ℝ) i) u := fun i =>
    hasFDerivAt_apply i u
  have hr := ((p 0).const_mul L).exp.const_mul a
  have hs := ((p 1).const_mul Real.pi).sin
  have hc := ((p 1).const_mul Real.pi).cos
  have hS := ((p 2).const_mul (2 * Real.pi)).sin
  have hC := ((p 2).const_mul (2 * Real.pi)).cos
  rw [hasFDerivAt_pi']
  intro i
  fin_cases i
  · refine ((hr.mul hs).mul hC).congr_fderiv ?_
    ext v
    simp [sphMat, Matrix.toLin'_apply, dotProduct, Fin.sum_univ_three]
    ring
  · refine ((hr.mul hs).mul hS).congr_fderiv ?_
    ext v
    simp [sphMat, Matrix.toLin'_apply, dotProduct, Fin.sum_univ_three]
    ring
  · refine (hr.mul hc).congr_fderiv ?_
    ext v
    simp [sphMat, Matrix.toLin'_apply, dotProduct, Fin.sum_univ_three]
    ring

/-- The open unit cube. -/
def cube3 : Set (Fin 3 → ℝ) := Set.univ.pi fun _ => Set.Ioo 0 1

theorem cube3_measurable : MeasurableSet cube3 := MeasurableSet.univ_pi fun _ => measurableSet_Ioo

theorem mem_cube3 (u : Fin 3 → ℝ) : u ∈ cube3 ↔ ∀ i, 0 < u i ∧ u i < 1 := by
  simp [cube3, Set.mem_pi]

theorem sph_sq (a L : ℝ) (u : Fin 3 → ℝ) : sph a L u 0 ^ 2 + sph a L u 1 ^ 2 + sph a L u 2 ^ 2 = (a * Real.exp (L * u 0)) ^ 2 := by
  simp only [sph, Matrix.cons_val]
  have h1 := Real.sin_sq_add_cos_sq (Real.pi * u 1)
  have h2 := Real.sin_sq_add_cos_sq (2 * Real.pi * u 2)
  generalize a * Real.exp (L * u 0) = r
  linear_combination r ^ 2 * (h1 + Real.sin (Real.pi * u 1) ^ 2 * h2)

theorem sph_injOn (a L : ℝ) (ha : 0 < a) (hL : 0 < L) : Set.InjOn (sph a L) cube3 := by
  intro u hu v hv e
  rw [mem_cube3] at hu hv
  have hpi := Real.pi_pos
  have hru : 0 < a * Real.exp (L * u 0) := by positivity
  have hrv : 0 < a * Real.exp (L * v 0) := by positivity
  have er : a * Real.exp (L * u 0) = a * Real.exp (L * v 0) := by
    have h := sph_sq a L u
    rw [e, sph_sq] at h
    exact ((sq_eq_sq₀ hrv.le hru.le).1 h).symm
  have e0 : u 0 = v 0 := by
    have := Real.exp_injective (mul_left_cancel₀ ha.ne' er)
    exact mul_left_cancel₀ hL.ne' this
  have e2 : a * Real.exp (L * u 0) * Real.cos (Real.pi * u 1) = a * Real.exp (L * v 0) * Real.cos (Real.pi * v 1) := congrFun e 2
  rw [er] at e2
  have hI : ∀ w : Fin 3 → ℝ, (∀ i, 0 < w i ∧ w i < 1) → Real.pi * w 1 ∈ Set.Icc 0 Real.pi := fun w hw =>
    ⟨mul_nonneg hpi.le (hw 1).1.le, mul_le_of_le_one_right hpi.le (hw 1).2.le⟩
  have e1 : u 1 = v 1 := mul_left_cancel₀ hpi.ne' (Real.injOn_cos (hI u hu) (hI v hv) (mul_left_cancel₀ hrv.ne' e2))
  have hs : 0 < Real.sin (Real.pi * v 1) :=
    Real.sin_pos_of_pos_of_lt_pi (mul_pos hpi (hv 1).1) (mul_lt_of_lt_one_right hpi (hv 1).2)
  have f0 : a * Real.exp (L * u 0) * Real.sin (Real.pi * u 1) * Real.cos (2 * Real.pi * u 2)
      = a * Real.exp (L * v 0) * Real.sin (Real.pi * v 1) * Real.cos (2 * Real.pi * v 2) := congrFun e 0
  have f1 : a * Real.exp (L * u 0) * Real.sin (Real.pi * u 1) * Real.sin (2 * Real.pi * u 2)
      = a * Real.exp (L * v 0) * Real.sin (Real.pi * v 1) * Real.sin (2 * Real.pi * v 2) := congrFun e 1
  rw [er, e1] at f0 f1
  have hm := (mul_pos hrv hs).ne'
  have hang := Real.Angle.cos_sin_inj (mul_left_cancel₀ hm f0) (mul_left_cancel₀ hm f1)
  obtain ⟨n, hn⟩ := Real.Angle.angle_eq_iff_two_pi_dvd_sub.1 hang
  have hn' : u 2 - v 2 = n := by
    have : (2 * Real.pi) * (u 2 - v 2) = (2 * Real.pi) * n := by rw [← hn]; ring
    exact mul_left_cancel₀ (by positivity) this
  have hlt : ((n : ℝ)) < 1 := by rw [← hn']; linarith [(hu 2).2, (hv 2).1]
  have hgt : (-1 : ℝ) < n := by rw [← hn']; linarith [(hu 2).1, (hv 2).2]
  have : n = 0 := by
    have h1 : n < 1 := by exact_mod_cast hlt
    have h2 : -1 < n := by exact_mod_cast hgt
    omega
  have e3 : u 2 = v 2 := by
    rw [this, Int.cast_zero] at hn'
    linarith
  funext i
  fin_cases i
  · exact e0
  · exact e1
  · exact e3

/-- Every point of the open shell off the plane `y = 0` is met. -/
theorem sph_surj (a b : ℝ) (ha : 0 < a) (hab : a < b) (v : Fin 3 → ℝ) (h0 : v 1 ≠ 0) (r : ℝ) (hr : v 0 ^ 2 + v 1 ^ 2 + v 2 ^ 2 = r ^ 2)
    (h1 : a < r) (h2 : r < b) : v ∈ sph a (Real.log (b / a)) '' cube3 := by
  have hpi := Real.pi_pos
  have hr0 : 0 < r := ha.trans h1
  have hL : 0 < Real.log (b / a) := Real.log_pos ((one_lt_div ha).2 hab)
  have hsq : 0 < v 1 ^ 2 := by positivity
  have hz : -1 < v 2 / r ∧ v 2 / r < 1 := by
    rw [lt_div_iff₀ hr0, div_lt_iff₀ hr0, neg_one_mul, one_mul, ← abs_lt]
    exact abs_lt_of_sq_lt_sq (by nlinarith [sq_nonneg (v 0)]) hr0.le
  let θ := Real.arccos (v 2 / r)
  have hcos : Real.cos θ = v 2 / r := Real.cos_arccos hz.1.le hz.2.le
  have hθ0 : 0 < θ := Real.arccos_pos.2 hz.2
  have hθ1 : θ < Real.pi := lt_of_le_of_ne (Real.arccos_le_pi _) fun h => by
    rw [h, Real.cos_pi] at hcos
    linarith [hz.1]
  have hsin : 0 < Real.sin θ := Real.sin_pos_of_pos_of_lt_pi hθ0 hθ1
  have hρ : (r * Real.sin θ) ^ 2 = v 0 ^ 2 + v 1 ^ 2 := by
    have h := Real.sin_sq_add_cos_sq θ
    rw [hcos] at h
    have h' : r ^ 2 * (v 2 / r) ^ 2 = v 2 ^ 2 := by field_simp
    nlinarith
  have hρ0 : 0 < r * Real.sin θ := mul_pos hr0 hsin
  have hx : -1 < v 0 / (r * Real.sin θ) ∧ v 0 / (r * Real.sin θ) < 1 := by
    rw [lt_div_iff₀ hρ0, div_lt_iff₀ hρ0, neg_one_mul, one_mul, ← abs_lt]
    exact abs_lt_of_sq_lt_sq (by nlinarith) hρ0.le
  let ψ := Real.arccos (v 0 / (r * Real.sin θ))
  have hcψ : Real.cos ψ = v 0 / (r * Real.sin θ) := Real.cos_arccos hx.1.le hx.2.le
  have hψ0 : 0 < ψ := Real.arccos_pos.2 hx.2
  have hψ1 : ψ < Real.pi := lt_of_le_of_ne (Real.arccos_le_pi _) fun h => by
    rw [h, Real.cos_pi] at hcψ
    linarith [hx.1]
  have hsψ : 0 < Real.sin ψ := Real.sin_pos_of_pos_of_lt_pi hψ0 hψ1
  have hy : (r * Real.sin θ * Real.sin ψ) ^ 2 = v 1 ^ 2 := by
    have h := Real.sin_sq_add_cos_sq ψ
    rw [hcψ] at h
    have h' : (r * Real.sin θ) ^ 2 * (v 0 / (r * Real.sin θ)) ^ 2 = v 0 ^ 2 := by field_simp
    nlinarith
  obtain ⟨φ, p0, p1, pc, ps⟩ : ∃ φ, 0 < φ ∧ φ < 2 * Real.pi ∧ r * Real.sin θ * Real.cos φ = v 0 ∧ r * Real.sin θ * Real.sin φ = v 1 := by
    have hc : r * Real.sin θ * Real.cos ψ = v 0 := by rw [hcψ]; field_simp
    have hyy := mul_pos hρ0 hsψ
    rcases lt_or_gt_of_ne h0 with hneg | hpos
    · refine ⟨2 * Real.pi - ψ, by linarith, by linarith, ?_, ?_⟩
      · rw [Real.cos_two_pi_sub, hc]
      · rw [Real.sin_two_pi_sub]
        rcases sq_eq_sq_iff_eq_or_eq_neg.1 hy with h | h <;> linarith
    · refine ⟨ψ, hψ0, by linarith, hc, ?_⟩
      rcases sq_eq_sq_iff_eq_or_eq_neg.1 hy with h | h <;> linarith
  refine ⟨![Real.log (r / a) / Real.log (b / a), θ / Real.pi, φ / (2 * Real.pi)], ?_, ?_⟩
  · rw [mem_cube3]
    have hlog : 0 < Real.log (r / a) := Real.log_pos ((one_lt_div ha).2 h1)
    have hlog2 : Real.log (r / a) < Real.log (b / a) :=
      Real.log_lt_log (div_pos hr0 ha) (div_lt_div_of_pos_right h2 ha)
    intro i
    fin_cases i
    · exact ⟨div_pos hlog hL, (div_lt_one hL).2 hlog2⟩
    · exact ⟨div_pos hθ0 hpi, (div_lt_one hpi).2 hθ1⟩
    · exact ⟨div_pos p0 (by positivity), (div_lt_one (by positivity)).2 p1⟩
  · have er : a * Real.exp (Real.log (b / a) * (Real.log (r / a) / Real.log (b / a))) = r := by
      rw [mul_div_cancel₀ _ hL.ne', Real.exp_log (div_pos hr0 ha)]
      field_simp
    have eθ : Real.pi * (θ / Real.pi) = θ := by field_simp
    have eφ : 2 * Real.pi * (φ / (2 * Real.pi)) = φ := by field_simp
    funext i
    fin_cases i
    · simp only [sph, Fin.zero_eta, Matrix.cons_val]
      rw [er, eθ, eφ, pc]
    · simp only [sph, Fin.mk_one, Matrix.cons_val]
      rw [er, eθ, eφ, ps]
    · simp only [sph, Fin.reduceFinMk, Matrix.cons_val]
      rw [er, eθ, hcos]
      field_simp

/-- Up to a negligible set the image of the cube is the shell. -/
theorem sph_image (a b : ℝ) (ha : 0 < a) (hab : a < b) :
    (sph a (Real.log (b / a)) '' cube3 : Set (Fin 3 → ℝ)) =ᵐ[volume] {v | a ≤ ‖(WithLp.toLp 2 v : E3)‖ ∧ ‖(WithLp.toLp 2 v : E3)‖ ≤ b} := by
  have hL : 0 < Real.log (b / a) := Real.log_pos ((one_lt_div ha).2 hab)
  have hnorm : ∀ v : Fin 3 → ℝ, ‖(WithLp.toLp 2 v : E3)‖ ^ 2 = v 0 ^ 2 + v 1 ^ 2 + v 2 ^ 2 := fun v => by
    rw [EuclideanSpace.norm_sq_eq, Fin.sum_univ_three]
    simp [sq_abs]
  refine Filter.EventuallyLE.antisymm (Filter.Eventually.of_forall ?_) ?_
  · rintro v ⟨u, hu, rfl⟩
    rw [mem_cube3] at hu
    have h := hnorm (sph a (Real.log (b / a)) u)
    rw [sph_sq] at h
    have h' := (sq_eq_sq₀ (norm_nonneg _) (by positivity)).1 h
    have h1 : 1 ≤ Real.exp (Real.log (b / a) * u 0) := Real.one_le_exp (mul_nonneg hL.le (hu 0).1.le)
    have h2 : Real.exp (Real.log (b / a) * u 0) ≤ b / a := by
      calc Real.exp (Real.log (b / a) * u 0) ≤ Real.exp (Real.log (b / a)) :=
            Real.exp_le_exp.2 (mul_le_of_le_one_right hL.le (hu 0).2.le)
        _ = b / a := Real.exp_log (div_pos (ha.trans hab) ha)
    show a ≤ ‖(WithLp.toLp 2 _ : E3)‖ ∧ ‖(WithLp.toLp 2 _ : E3)‖ ≤ b
    rw [h']
    refine ⟨le_mul_of_one_le_right ha.le h1, ?_⟩
    calc a * Real.exp (Real.log (b / a) * u 0) ≤ a * (b / a) := mul_le_mul_of_nonneg_left h2 ha.le
      _ = b := by field_simp
  · have hq := (PiLp.volume_preserving_toLp (Fin 3)).quasiMeasurePreserving
    have n1 : ∀ c : ℝ, ∀ᵐ v : Fin 3 → ℝ, ‖(WithLp.toLp 2 v : E3)‖ ≠ c := fun c => by
      have := hq.preimage_null (Measure.addHaar_sphere volume (0 : E3) c)
      refine ae_iff.2 (measure_mono_null ?_ this)
      intro v hv
      simp only [ne_eq, not_not] at hv
      show _ ∈ Metric.sphere _ _
      rw [mem_sphere_zero_iff_norm]
      exact hv
    have n2 : ∀ᵐ v : Fin 3 → ℝ, v 1 ≠ 0 := ae_iff.2 (by
      have h := Measure.pi_hyperplane (fun _ : Fin 3 => (volume : Measure ℝ)) 1 0
      rw [← volume_pi] at h
      simpa using h)
    filter_upwards [n1 a, n1 b, n2] with v va vb v1 hv
    exact sph_surj a b ha hab v v1 _ (hnorm v).symm (lt_of_le_of_ne hv.1 va.symm) (lt_of_le_of_ne hv.2 vb)

/-- An integral over a shell in logarithmic spherical coordinates over the unit cube. -/
theorem integral_shell (a b : ℝ) (ha : 0 < a) (hab : a < b) (f : E3 → ℝ) :
    ∫ q in {q : E3 | a ≤ ‖q‖ ∧ ‖q‖ ≤ b}, f q = ∫ u in cube3, f (WithLp.toLp 2 (sph a (Real.log (b / a)) u)) *
      (Real.log (b / a) * Real.pi * (2 * Real.pi) * (a * Real.exp (Real.log (b / a) * u 0)) ^ 3 * Real.sin (Real.pi * u 1)) := by
  have hL : 0 < Real.log (b / a) := Real.log_pos ((one_lt_div ha).2 hab)
  have hp := PiLp.volume_preserving_toLp (Fin 3)
  have he : MeasurableEmbedding (WithLp.toLp 2 : (Fin 3 → ℝ) → E3) := (MeasurableEquiv.toLp 2 (Fin 3 → ℝ)).measurableEmbedding
  rw [← hp.setIntegral_preimage_emb he f]
  have e : (WithLp.toLp 2 : (Fin 3 → ℝ) → E3) ⁻¹' {q : E3 | a ≤ ‖q‖ ∧ ‖q‖ ≤ b} =ᵐ[volume] sph a (Real.log (b / a)) '' cube3 :=
    (sph_image a b ha hab).symm
  rw [setIntegral_congr_set e, integral_image_eq_integral_abs_det_fderiv_smul volume cube3_measurable
    (fun u _ => (sph_hasFDerivAt a _ u).hasFDerivWithinAt) (sph_injOn a _ ha hL)]
  refine setIntegral_congr_fun cube3_measurable fun u hu => ?_
  rw [mem_cube3] at hu
  have hs : 0 < Real.sin (Real.pi * u 1) :=
    Real.sin_pos_of_pos_of_lt_pi (mul_pos Real.pi_pos (hu 1).1) (mul_lt_of_lt_one_right Real.pi_pos (hu 1).2)
  have hd : (LinearMap.toContinuousLinearMap (Matrix.toLin' (sphMat a (Real.log (b / a)) u))).det
      = Real.log (b / a) * Real.pi * (2 * Real.pi) * (a * Real.exp (Real.log (b / a) * u 0)) ^ 3 * Real.sin (Real.pi * u 1) := by
    rw [← sphMat_det, ← LinearMap.det_toLin']
    rfl
  show |_| • _ = _
  rw [hd, abs_of_pos (by have := Real.pi_pos; positivity), smul_eq_mul, mul_comm]

end Verif
