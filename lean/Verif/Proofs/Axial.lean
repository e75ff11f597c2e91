import Verif.Proofs.Spherical

/-!
# Integrals over shells of functions that are symmetric around an axis
-/

namespace Verif

open MeasureTheory

theorem integrable_shell (a b : ℝ) (ha : 0 < a) (hab : a < b) (f : E3 → ℝ) (hf : IntegrableOn f {q : E3 | a ≤ ‖q‖ ∧ ‖q‖ ≤ b}) :
    IntegrableOn (fun u => f (WithLp.toLp 2 (sph a (Real.log (b / a)) u)) *
      (Real.log (b / a) * Real.pi * (2 * Real.pi) * (a * Real.exp (Real.log (b / a) * u 0)) ^ 3 * Real.sin (Real.pi * u 1))) cube3 := by
  have hL : 0 < Real.log (b / a) := Real.log_pos ((one_lt_div ha).2 hab)
  have hp := PiLp.volume_preserving_toLp (Fin 3)
  have he : MeasurableEmbedding (WithLp.toLp 2 : (Fin 3 → ℝ) → E3) := (MeasurableEquiv.toLp 2 (Fin 3 → ℝ)).measurableEmbedding
  have e : (WithLp.toLp 2 : (Fin 3 → ℝ) → E3) ⁻¹' {q : E3 | a ≤ ‖q‖ ∧ ‖q‖ ≤ b} =ᵐ[volume] sph a (Real.log (b / a)) '' cube3 :=
    (sph_image a b ha hab).symm
  have h1 := (hp.integrableOn_comp_preimage he).2 hf
  have h2 : IntegrableOn (fun v => f (WithLp.toLp 2 v)) (sph a (Real.log (b / a)) '' cube3) := h1.congr_set_ae e.symm
  rw [integrableOn_image_iff_integrableOn_abs_det_fderiv_smul volume cube3_measurable
    (fun u _ => (sph_hasFDerivAt a _ u).hasFDerivWithinAt) (sph_injOn a _ ha hL)] at h2
  refine h2.congr_fun (fun u hu => ?_) cube3_measurable
  rw [mem_cube3] at hu
  have hs : 0 < Real.sin (Real.pi * u 1) :=
    Real.sin_pos_of_pos_of_lt_pi (mul_pos Real.pi_pos (hu 1).1) (mul_lt_of_lt_one_right Real.pi_pos (hu 1).2)
  have hd : (LinearMap.toContinuousLinearMap (Matrix.toLin' (sphMat a (Real.log (b / a)) u))).det
      = Real.log (b / a) * Real.pi * (2 * Real.pi) * (a * Real.exp (Real.log (b / a) * u 0)) ^ 3 * Real.sin (Real.pi * u 1) := by
    rw [← sphMat_det, ← LinearMap.det_toLin']
    rfl
  show |_| • _ = _
  rw [hd, abs_of_pos (by have := Real.pi_pos; positivity), smul_eq_mul, mul_comm]

/-- Integral over the cube of a function that does not depend on the third coordinate. -/
theorem integral_cube3_all (h : ℝ → ℝ → ℝ) (hi : IntegrableOn (fun u => h (u 0) (u 1)) cube3) :
    IntegrableOn (fun w : ℝ × ℝ => h w.1 w.2) (Set.Ioo 0 1 ×ˢ Set.Ioo 0 1) ∧
    ∫ u in cube3, h (u 0) (u 1) = ∫ x in Set.Ioo (0 : ℝ) 1, ∫ y in Set.Ioo (0 : ℝ) 1, h x y := by
  have m1 := volume_preserving_piFinSuccAbove (fun _ : Fin 3 => ℝ) 2
  have m2 := volume_preserving_finTwoArrow ℝ
  have e1 := m1.setIntegral_preimage_emb (MeasurableEquiv.measurableEmbedding _) (fun w : ℝ × (Fin 2 → ℝ) => 1 * h (w.2 0) (w.2 1))
    (Set.Ioo 0 1 ×ˢ Set.univ.pi fun _ => Set.Ioo 0 1)
  have e2 := m2.setIntegral_preimage_emb (MeasurableEquiv.measurableEmbedding _) (fun w : ℝ × ℝ => h w.1 w.2) (Set.Ioo 0 1 ×ˢ Set.Ioo 0 1)
  have p1 : (MeasurableEquiv.piFinSuccAbove (fun _ : Fin 3 => ℝ) 2) ⁻¹' (Set.Ioo 0 1 ×ˢ Set.univ.pi fun _ => Set.Ioo 0 1) = cube3 := by
    ext u
    simp only [Set.mem_preimage, Set.mem_prod, Set.mem_pi, Set.mem_univ, true_imp_iff, cube3]
    constructor
    · rintro ⟨a, b⟩ i
      fin_cases i
      · exact b 0
      · exact b 1
      · exact a
    · intro a
      refine ⟨a 2, fun i => ?_⟩
      fin_cases i
      · exact a 0
      · exact a 1
  have p2 : MeasurableEquiv.finTwoArrow ⁻¹' (Set.Ioo (0 : ℝ) 1 ×ˢ Set.Ioo (0 : ℝ) 1) = Set.univ.pi fun _ => Set.Ioo 0 1 := by
    ext u
    simp only [Set.mem_preimage, Set.mem_prod, Set.mem_pi, Set.mem_univ, true_imp_iff, Fin.forall_fin_two]
    rfl
  have i1 : IntegrableOn (fun w : ℝ × (Fin 2 → ℝ) => h (w.2 0) (w.2 1)) (Set.Ioo 0 1 ×ˢ Set.univ.pi fun _ => Set.Ioo 0 1) := by
    rw [← m1.integrableOn_comp_preimage (MeasurableEquiv.measurableEmbedding _), p1]
    exact hi
  have i2 : IntegrableOn (fun w : Fin 2 → ℝ => h (w 0) (w 1)) (Set.univ.pi fun _ => Set.Ioo 0 1) := by
    rw [IntegrableOn, Measure.volume_eq_prod, ← Measure.prod_restrict] at i1
    refine Integrable.of_comp_snd (f := fun w : Fin 2 → ℝ => h (w 0) (w 1)) i1 ?_
    rw [Ne, Measure.restrict_eq_zero]
    simp
  have i3 : IntegrableOn (fun w : ℝ × ℝ => h w.1 w.2) (Set.Ioo 0 1 ×ˢ Set.Ioo 0 1) := by
    rw [← m2.integrableOn_comp_preimage (MeasurableEquiv.measurableEmbedding _), p2]
    exact i2
  refine ⟨i3, ?_⟩
  rw [p1] at e1
  rw [p2] at e2
  have e3 := setIntegral_prod_mul (μ := volume) (ν := volume) (fun _ : ℝ => (1 : ℝ)) (fun w : Fin 2 → ℝ => h (w 0) (w 1)) (Set.Ioo 0 1)
    (Set.univ.pi fun _ => Set.Ioo 0 1)
  rw [← setIntegral_prod (fun w : ℝ × ℝ => h w.1 w.2) i3, ← Measure.volume_eq_prod, ← e2]
  refine Eq.trans ?_ (e1.trans (e3.trans ?_))
  · refine integral_congr_ae (Filter.Eventually.of_forall fun u => ?_)
    show _ = 1 * _
    rw [one_mul]
    rfl
  · simp

/-- The cosine of the polar angle as the variable. -/
theorem integral_cos_all (g : ℝ → ℝ) :
    ∫ y in Set.Ioo (0 : ℝ) 1, g (Real.cos (Real.pi * y)) * (Real.pi * Real.sin (Real.pi * y)) = ∫ mu in (-1 : ℝ)..1, g mu := by
  have hpi := Real.pi_pos
  have hd : ∀ y ∈ Set.Ioo (0 : ℝ) 1, HasDerivWithinAt (fun y => Real.cos (Real.pi * y)) (-(Real.pi * Real.sin (Real.pi * y))) (Set.Ioo 0 1) y :=
    fun y _ => by
      have h := ((hasDerivAt_id y).const_mul Real.pi).cos
      refine (h.congr_deriv ?_).hasDerivWithinAt
      simp
      ring
  have hin : ∀ y ∈ Set.Ioo (0 : ℝ) 1, Real.pi * y ∈ Set.Ioo 0 Real.pi := fun y hy =>
    ⟨mul_pos hpi hy.1, mul_lt_of_lt_one_right hpi hy.2⟩
  have hinj : Set.InjOn (fun y => Real.cos (Real.pi * y)) (Set.Ioo 0 1) := fun y hy z hz h =>
    mul_left_cancel₀ hpi.ne' (Real.injOn_cos ⟨(hin y hy).1.le, (hin y hy).2.le⟩ ⟨(hin z hz).1.le, (hin z hz).2.le⟩ h)
  have himg : (fun y => Real.cos (Real.pi * y)) '' Set.Ioo 0 1 = Set.Ioo (-1) 1 := by
    ext c
    constructor
    · rintro ⟨y, hy, rfl⟩
      have h := hin y hy
      constructor
      · rw [← Real.cos_pi]
        exact Real.cos_lt_cos_of_nonneg_of_le_pi h.1.le le_rfl h.2
      · rw [← Real.cos_zero]
        exact Real.cos_lt_cos_of_nonneg_of_le_pi le_rfl h.2.le h.1
    · rintro ⟨h1, h2⟩
      refine ⟨Real.arccos c / Real.pi, ⟨div_pos (Real.arccos_pos.2 h2) hpi, ?_⟩, ?_⟩
      · rw [div_lt_one hpi]
        refine lt_of_le_of_ne (Real.arccos_le_pi c) fun e => ?_
        have := Real.arccos_eq_pi.1 e
        linarith
      · beta_reduce
        rw [mul_div_cancel₀ _ hpi.ne', Real.cos_arccos h1.le h2.le]
  rw [intervalIntegral.integral_of_le (by norm_num), integral_Ioc_eq_integral_Ioo, ← himg,
    integral_image_eq_integral_abs_deriv_smul measurableSet_Ioo hd hinj]
  refine setIntegral_congr_fun measurableSet_Ioo fun y hy => ?_
  have hs := Real.sin_pos_of_mem_Ioo (hin y hy)
  show _ = |_| • _
  rw [abs_neg, abs_of_pos (by positivity), smul_eq_mul, mul_comm]

/-- The radius as the variable. -/
theorem integral_logr (g : ℝ → ℝ) (a b : ℝ) (ha : 0 < a) (hab : a < b) :
    ∫ u in Set.Ioo (0 : ℝ) 1, g (a * Real.exp (Real.log (b / a) * u)) * (Real.log (b / a) * (a * Real.exp (Real.log (b / a) * u)))
      = ∫ r in a..b, g r := by
  have hL0 : 0 < Real.log (b / a) := Real.log_pos ((one_lt_div ha).2 hab)
  set L := Real.log (b / a) with hL
  have hb : a * Real.exp L = b := by
    rw [hL, Real.exp_log (div_pos (ha.trans hab) ha)]
    field_simp
  have hd : ∀ u ∈ Set.Ioo (0 : ℝ) 1, HasDerivWithinAt (fun u => a * Real.exp (L * u)) (L * (a * Real.exp (L * u))) (Set.Ioo 0 1) u := fun u _ => by
    have h := (((hasDerivAt_id u).const_mul L).exp).const_mul a
    refine (h.congr_deriv ?_).hasDerivWithinAt
    simp only [id]
    ring
  have hinj : Function.Injective (fun u => a * Real.exp (L * u)) := fun u v h =>
    mul_left_cancel₀ hL0.ne' (Real.exp_injective (mul_left_cancel₀ ha.ne' h))
  have himg : (fun u => a * Real.exp (L * u)) '' Set.Ioo 0 1 = Set.Ioo a b := by
    ext r
    constructor
    · rintro ⟨u, ⟨u0, u1⟩, rfl⟩
      constructor
      · exact lt_mul_of_one_lt_right ha (Real.one_lt_exp_iff.2 (mul_pos hL0 u0))
      · rw [← hb]
        exact mul_lt_mul_of_pos_left (Real.exp_lt_exp.2 (mul_lt_of_lt_one_right hL0 u1)) ha
    · rintro ⟨r0, r1⟩
      refine ⟨Real.log (r / a) / L, ⟨div_pos (Real.log_pos ((one_lt_div ha).2 r0)) hL0, ?_⟩, ?_⟩
      · rw [div_lt_one hL0, hL]
        exact Real.log_lt_log (div_pos (ha.trans r0) ha) (div_lt_div_of_pos_right r1 ha)
      · beta_reduce
        rw [mul_div_cancel₀ _ hL0.ne', Real.exp_log (div_pos (ha.trans r0) ha)]
        field_simp
  rw [intervalIntegral.integral_of_le hab.le, integral_Ioc_eq_integral_Ioo, ← himg,
    integral_image_eq_integral_abs_deriv_smul measurableSet_Ioo hd hinj.injOn]
  refine setIntegral_congr_fun measurableSet_Ioo fun u _ => ?_
  show _ = |_| • _
  rw [abs_of_pos (by positivity), smul_eq_mul, mul_comm]

/-- A function of the modulus and of the cosine with the third axis: the integral over a shell. -/
theorem integral_axis (F : ℝ → ℝ → ℝ) (a b : ℝ) (ha : 0 < a) (hab : a < b)
    (hi : IntegrableOn (fun q : E3 => F ‖q‖ (q 2 / ‖q‖)) {q : E3 | a ≤ ‖q‖ ∧ ‖q‖ ≤ b}) :
    ∫ q in {q : E3 | a ≤ ‖q‖ ∧ ‖q‖ ≤ b}, F ‖q‖ (q 2 / ‖q‖) = 2 * Real.pi * ∫ r in a..b, r ^ 2 * ∫ mu in (-1 : ℝ)..1, F r mu := by
  have hL0 : 0 < Real.log (b / a) := Real.log_pos ((one_lt_div ha).2 hab)
  have hi' := integrable_shell a b ha hab _ hi
  rw [integral_shell a b ha hab]
  set L := Real.log (b / a) with hL
  let r : ℝ → ℝ := fun u => a * Real.exp (L * u)
  have hr : ∀ u, 0 < r u := fun u => mul_pos ha (Real.exp_pos _)
  have e1 : ∀ u : Fin 3 → ℝ, F ‖(WithLp.toLp 2 (sph a L u) : E3)‖ ((WithLp.toLp 2 (sph a L u) : E3) 2 / ‖(WithLp.toLp 2 (sph a L u) : E3)‖)
      * (L * Real.pi * (2 * Real.pi) * (a * Real.exp (L * u 0)) ^ 3 * Real.sin (Real.pi * u 1))
      = F (r (u 0)) (Real.cos (Real.pi * u 1)) * (Real.pi * Real.sin (Real.pi * u 1)) * (2 * Real.pi * r (u 0) ^ 2 * (L * r (u 0))) := fun u => by
    have hn : ‖(WithLp.toLp 2 (sph a L u) : E3)‖ = r (u 0) := by
      rw [EuclideanSpace.norm_eq, Fin.sum_univ_three]
      simp only [Real.norm_eq_abs, sq_abs]
      rw [sph_sq a L u, Real.sqrt_sq (hr _).le]
    have hz : (WithLp.toLp 2 (sph a L u) : E3) 2 = r (u 0) * Real.cos (Real.pi * u 1) := rfl
    rw [hn, hz, mul_div_cancel_left₀ _ (hr _).ne']
    simp only [r]
    ring
  simp only [e1] at hi' ⊢
  obtain ⟨-, h2⟩ := integral_cube3_all (fun x y => F (r x) (Real.cos (Real.pi * y)) * (Real.pi * Real.sin (Real.pi * y)) * (2 * Real.pi * r x ^ 2 * (L * r x))) hi'
  rw [h2]
  simp only [integral_mul_const, integral_cos_all]
  rw [← intervalIntegral.integral_const_mul, ← integral_logr _ a b ha hab]
  refine integral_congr_ae (Filter.Eventually.of_forall fun u => ?_)
  simp only [r]
  ring

/-- The logarithm of the radius as the variable. -/
theorem integral_exp (g : ℝ → ℝ) (a b : ℝ) (ha : 0 < a) (hab : a < b) :
    ∫ t in Real.log a..Real.log b, g (Real.exp t) * Real.exp t = ∫ r in a..b, g r := by
  have himg : Real.exp '' Set.Ioo (Real.log a) (Real.log b) = Set.Ioo a b := by
    ext r
    constructor
    · rintro ⟨t, ⟨t0, t1⟩, rfl⟩
      exact ⟨(Real.log_lt_iff_lt_exp ha).1 t0, (Real.lt_log_iff_exp_lt (ha.trans hab)).1 t1⟩
    · rintro ⟨r0, r1⟩
      exact ⟨Real.log r, ⟨Real.log_lt_log ha r0, Real.log_lt_log (ha.trans r0) r1⟩, Real.exp_log (ha.trans r0)⟩
  rw [intervalIntegral.integral_of_le hab.le, integral_Ioc_eq_integral_Ioo, ← himg,
    integral_image_eq_integral_abs_deriv_smul measurableSet_Ioo (fun t _ => (Real.hasDerivAt_exp t).hasDerivWithinAt) Real.exp_injective.injOn,
    intervalIntegral.integral_of_le (Real.log_lt_log ha hab).le, integral_Ioc_eq_integral_Ioo]
  refine setIntegral_congr_fun measurableSet_Ioo fun t _ => ?_
  show _ = |_| • _
  rw [abs_of_pos (Real.exp_pos t), smul_eq_mul, mul_comm]

theorem shell_measurable (a b : ℝ) : MeasurableSet {q : E3 | a ≤ ‖q‖ ∧ ‖q‖ ≤ b} :=
  (measurableSet_le measurable_const measurable_norm).inter (measurableSet_le measurable_norm measurable_const)

/-- A function of the modulus and of the cosine with a given direction: the integral over a shell. -/
theorem integral_axis_dir (F : ℝ → ℝ → ℝ) (k : E3) (hk : k ≠ 0) (a b : ℝ) (ha : 0 < a) (hab : a < b)
    (hi : IntegrableOn (fun q : E3 => F ‖q‖ (inner ℝ k q / (‖k‖ * ‖q‖))) {q : E3 | a ≤ ‖q‖ ∧ ‖q‖ ≤ b}) :
    ∫ q in {q : E3 | a ≤ ‖q‖ ∧ ‖q‖ ≤ b}, F ‖q‖ (inner ℝ k q / (‖k‖ * ‖q‖))
      = 2 * Real.pi * ∫ r in a..b, r ^ 2 * ∫ mu in (-1 : ℝ)..1, F r mu := by
  have hκ : 0 < ‖k‖ := norm_pos_iff.2 hk
  let e : E3 := !₂[0, 0, ‖k‖]
  have he : ‖k‖ = ‖e‖ := by
    rw [EuclideanSpace.norm_eq e, Fin.sum_univ_three]
    simp [e]
  let R : E3 ≃ₗᵢ[ℝ] E3 := (ℝ ∙ (k - e))ᗮ.reflection
  have hR : R k = e := Submodule.reflection_sub he
  have hf : ∀ q, F ‖q‖ (inner ℝ k q / (‖k‖ * ‖q‖)) = F ‖R q‖ ((R q) 2 / ‖R q‖) := fun q => by
    have h : inner ℝ k q = ‖k‖ * (R q) 2 := by
      rw [← R.inner_map_map, hR, PiLp.inner_apply, Fin.sum_univ_three]
      simp [e, mul_comm]
    rw [R.norm_map, h, mul_div_mul_left _ _ hκ.ne']
  have hpre : R ⁻¹' {q : E3 | a ≤ ‖q‖ ∧ ‖q‖ ≤ b} = {q : E3 | a ≤ ‖q‖ ∧ ‖q‖ ≤ b} := by
    ext q
    simp only [Set.mem_preimage, Set.mem_ofPred_eq, R.norm_map]
  have hint := R.measurePreserving.setIntegral_preimage_emb R.toHomeomorph.measurableEmbedding
    (fun q => F ‖q‖ (q 2 / ‖q‖)) {q : E3 | a ≤ ‖q‖ ∧ ‖q‖ ≤ b}
  have hint' := R.measurePreserving.integrableOn_comp_preimage R.toHomeomorph.measurableEmbedding
    (f := fun q => F ‖q‖ (q 2 / ‖q‖)) (s := {q : E3 | a ≤ ‖q‖ ∧ ‖q‖ ≤ b})
  rw [hpre] at hint hint'
  simp only [hf] at hi ⊢
  rw [hint, integral_axis F a b ha hab (hint'.1 hi)]

end Verif
