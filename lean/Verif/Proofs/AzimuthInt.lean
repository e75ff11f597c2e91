import Verif.Proofs.Axial
import Verif.Props.LoopQuadrature
import Verif.Spec.Azimuth

/-!
# Averaging over the azimuth around a direction inside a loop integral
-/

namespace Verif

open MeasureTheory

/-- Averaging over the third coordinate of the cube. -/
theorem integral_cube3_third (h : ℝ → ℝ → ℝ → ℝ) (hi : IntegrableOn (fun u => h (u 0) (u 1) (u 2)) cube3) :
    IntegrableOn (fun u => ∫ z in Set.Ioo (0 : ℝ) 1, h (u 0) (u 1) z) cube3 ∧
      ∫ u in cube3, h (u 0) (u 1) (u 2) = ∫ u in cube3, ∫ z in Set.Ioo (0 : ℝ) 1, h (u 0) (u 1) z := by
  have m1 := volume_preserving_piFinSuccAbove (fun _ : Fin 3 => ℝ) 2
  let A : Set (Fin 2 → ℝ) := Set.univ.pi fun _ => Set.Ioo 0 1
  have p1 : (MeasurableEquiv.piFinSuccAbove (fun _ : Fin 3 => ℝ) 2) ⁻¹' (Set.Ioo 0 1 ×ˢ A) = cube3 := by
    ext u
    simp only [Set.mem_preimage, Set.mem_prod, Set.mem_pi, Set.mem_univ, true_imp_iff, cube3, A]
    constructor
    · rintro ⟨a, b⟩ i
      fin_cases i
      · exact b 0
      · exact b 1
      · exact a
    · intro a
      refine ⟨a 2, fun i => ?_⟩
      fin_cases i
      · exact a 0
      · exact a 1
  have e1 := m1.setIntegral_preimage_emb (MeasurableEquiv.measurableEmbedding _) (fun w : ℝ × (Fin 2 → ℝ) => h (w.2 0) (w.2 1) w.1)
    (Set.Ioo 0 1 ×ˢ A)
  have e2 := m1.setIntegral_preimage_emb (MeasurableEquiv.measurableEmbedding _)
    (fun w : ℝ × (Fin 2 → ℝ) => ∫ z in Set.Ioo (0 : ℝ) 1, h (w.2 0) (w.2 1) z) (Set.Ioo 0 1 ×ˢ A)
  have i1 : IntegrableOn (fun w : ℝ × (Fin 2 → ℝ) => h (w.2 0) (w.2 1) w.1) (Set.Ioo 0 1 ×ˢ A) := by
    rw [← m1.integrableOn_comp_preimage (MeasurableEquiv.measurableEmbedding _), p1]
    exact hi
  rw [p1] at e1 e2
  have i1' := i1
  rw [IntegrableOn, Measure.volume_eq_prod, ← Measure.prod_restrict] at i1'
  have i2 : IntegrableOn (fun w : Fin 2 → ℝ => ∫ z in Set.Ioo (0 : ℝ) 1, h (w 0) (w 1) z) A := i1'.integral_prod_right
  have i3 : IntegrableOn (fun w : ℝ × (Fin 2 → ℝ) => ∫ z in Set.Ioo (0 : ℝ) 1, h (w.2 0) (w.2 1) z) (Set.Ioo 0 1 ×ˢ A) := by
    rw [IntegrableOn, Measure.volume_eq_prod, ← Measure.prod_restrict]
    exact i2.comp_snd _
  constructor
  · rw [← m1.integrableOn_comp_preimage (MeasurableEquiv.measurableEmbedding _), p1] at i3
    exact i3
  · refine Eq.trans (show _ = _ from rfl) (e1.trans (Eq.trans ?_ e2.symm))
    rw [Measure.volume_eq_prod, ← Measure.prod_restrict, integral_prod_symm _ i1']
    have i3' := i3
    rw [IntegrableOn, Measure.volume_eq_prod, ← Measure.prod_restrict] at i3'
    rw [integral_prod_symm _ i3']
    simp

/-- The average over the azimuth as an average over the unit interval. -/
theorem azAvg_unit (g : ℝ → ℝ) : azAvg g = ∫ z in Set.Ioo (0 : ℝ) 1, g (2 * Real.pi * z) := by
  have h2 : (2 * Real.pi : ℝ) ≠ 0 := by positivity
  rw [← integral_Ioc_eq_integral_Ioo, ← intervalIntegral.integral_of_le zero_le_one, intervalIntegral.integral_comp_mul_left g h2, azAvg, mul_zero,
    mul_one, smul_eq_mul, div_eq_inv_mul]

/-- The third axis and a direction in the half plane spanned by the first and third axes. -/
theorem integral_azimuth_axis (H : ℝ → ℝ → ℝ → ℝ) (nu : ℝ) (a b : ℝ) (ha : 0 < a) (hab : a < b)
    (hi : IntegrableOn (fun q : E3 => H ‖q‖ (q 2 / ‖q‖) (Real.sqrt (1 - nu ^ 2) * q 0 + nu * q 2)) {q : E3 | a ≤ ‖q‖ ∧ ‖q‖ ≤ b}) :
    ∫ q in {q : E3 | a ≤ ‖q‖ ∧ ‖q‖ ≤ b}, H ‖q‖ (q 2 / ‖q‖) (Real.sqrt (1 - nu ^ 2) * q 0 + nu * q 2) =
      ∫ q in {q : E3 | a ≤ ‖q‖ ∧ ‖q‖ ≤ b}, azAvg fun phi => H ‖q‖ (q 2 / ‖q‖) (‖q‖ * losCos nu (q 2 / ‖q‖) phi) := by
  have hi' := integrable_shell a b ha hab _ hi
  rw [integral_shell a b ha hab, integral_shell a b ha hab]
  set L := Real.log (b / a) with hL
  let r : ℝ → ℝ := fun u => a * Real.exp (L * u)
  let J : ℝ → ℝ → ℝ := fun x y => L * Real.pi * (2 * Real.pi) * (a * Real.exp (L * x)) ^ 3 * Real.sin (Real.pi * y)
  let h : ℝ → ℝ → ℝ → ℝ := fun x y z => H (r x) (Real.cos (Real.pi * y)) (r x * losCos nu (Real.cos (Real.pi * y)) (2 * Real.pi * z)) * J x y
  have hr : ∀ u, 0 < r u := fun u => mul_pos ha (Real.exp_pos _)
  have hn (u : Fin 3 → ℝ) : ‖(WithLp.toLp 2 (sph a L u) : E3)‖ = r (u 0) := by
    rw [EuclideanSpace.norm_eq, Fin.sum_univ_three]
    simp only [Real.norm_eq_abs, sq_abs]
    rw [sph_sq a L u, Real.sqrt_sq (hr _).le]
  have hz (u : Fin 3 → ℝ) : (WithLp.toLp 2 (sph a L u) : E3) 2 = r (u 0) * Real.cos (Real.pi * u 1) := rfl
  have hx (u : Fin 3 → ℝ) : (WithLp.toLp 2 (sph a L u) : E3) 0 = r (u 0) * Real.sin (Real.pi * u 1) * Real.cos (2 * Real.pi * u 2) := rfl
  have e1 : ∀ u ∈ cube3, H ‖(WithLp.toLp 2 (sph a L u) : E3)‖ ((WithLp.toLp 2 (sph a L u) : E3) 2 / ‖(WithLp.toLp 2 (sph a L u) : E3)‖)
      (Real.sqrt (1 - nu ^ 2) * (WithLp.toLp 2 (sph a L u) : E3) 0 + nu * (WithLp.toLp 2 (sph a L u) : E3) 2)
      * (L * Real.pi * (2 * Real.pi) * (a * Real.exp (L * u 0)) ^ 3 * Real.sin (Real.pi * u 1)) = h (u 0) (u 1) (u 2) := fun u hu => by
    rw [mem_cube3] at hu
    have hs : 0 < Real.sin (Real.pi * u 1) :=
      Real.sin_pos_of_pos_of_lt_pi (mul_pos Real.pi_pos (hu 1).1) (mul_lt_of_lt_one_right Real.pi_pos (hu 1).2)
    have hsq : Real.sqrt (1 - Real.cos (Real.pi * u 1) ^ 2) = Real.sin (Real.pi * u 1) := by
      rw [← Real.sin_sq, Real.sqrt_sq hs.le]
    rw [hn, hz, hx, mul_div_cancel_left₀ _ (hr _).ne']
    simp only [h, J, losCos, hsq]
    congr 2
    ring
  have e2 : ∀ u ∈ cube3, (azAvg fun phi => H ‖(WithLp.toLp 2 (sph a L u) : E3)‖ ((WithLp.toLp 2 (sph a L u) : E3) 2 / ‖(WithLp.toLp 2 (sph a L u) : E3)‖)
      (‖(WithLp.toLp 2 (sph a L u) : E3)‖ * losCos nu ((WithLp.toLp 2 (sph a L u) : E3) 2 / ‖(WithLp.toLp 2 (sph a L u) : E3)‖) phi))
      * (L * Real.pi * (2 * Real.pi) * (a * Real.exp (L * u 0)) ^ 3 * Real.sin (Real.pi * u 1)) = ∫ z in Set.Ioo (0 : ℝ) 1, h (u 0) (u 1) z :=
    fun u _ => by
      rw [hn, hz, mul_div_cancel_left₀ _ (hr _).ne', azAvg_unit, ← integral_mul_const]
  rw [setIntegral_congr_fun cube3_measurable e1, setIntegral_congr_fun cube3_measurable e2]
  exact (integral_cube3_third h (hi'.congr_fun e1 cube3_measurable)).2

/-- A function of the modulus, of the cosine with `k` and of the component along the direction `n`: inside an integral over a shell it may be
replaced by its average over the azimuth around `k`. -/
theorem integral_azimuth (H : ℝ → ℝ → ℝ → ℝ) (k n : E3) (hk : k ≠ 0) (hn : ‖n‖ = 1) (a b : ℝ) (ha : 0 < a) (hab : a < b)
    (hi : IntegrableOn (fun q : E3 => H ‖q‖ (cosOf k q) (inner ℝ n q)) {q : E3 | a ≤ ‖q‖ ∧ ‖q‖ ≤ b}) :
    ∫ q in {q : E3 | a ≤ ‖q‖ ∧ ‖q‖ ≤ b}, H ‖q‖ (cosOf k q) (inner ℝ n q) =
      ∫ q in {q : E3 | a ≤ ‖q‖ ∧ ‖q‖ ≤ b}, azAvg fun phi => H ‖q‖ (cosOf k q) (‖q‖ * losCos (cosOf k n) (cosOf k q) phi) := by
  have hκ : 0 < ‖k‖ := norm_pos_iff.2 hk
  set nu := cosOf k n with hnu
  let e : E3 := !₂[0, 0, ‖k‖]
  have he : ‖k‖ = ‖e‖ := by
    rw [EuclideanSpace.norm_eq e, Fin.sum_univ_three]
    simp [e]
  let R1 : E3 ≃ₗᵢ[ℝ] E3 := (ℝ ∙ (k - e))ᗮ.reflection
  have hR1 : R1 k = e := Submodule.reflection_sub he
  have hin (q : E3) : inner ℝ e q = ‖k‖ * q 2 := by
    rw [PiLp.inner_apply, Fin.sum_univ_three]
    simp [e, mul_comm]
  have hz : (R1 n) 2 = nu := by
    have h : inner ℝ k n = ‖k‖ * (R1 n) 2 := by rw [← R1.inner_map_map, hR1, hin]
    rw [hnu, cosOf, h, hn]
    field_simp
  let m : E3 := !₂[Real.sqrt (1 - nu ^ 2), 0, nu]
  have hnu2 : nu ^ 2 ≤ 1 := by
    have h1 : ‖R1 n‖ ^ 2 = 1 := by rw [R1.norm_map, hn, one_pow]
    rw [EuclideanSpace.norm_sq_eq, Fin.sum_univ_three, hz] at h1
    simp only [Real.norm_eq_abs, sq_abs] at h1
    nlinarith [sq_nonneg ((R1 n) 0), sq_nonneg ((R1 n) 1)]
  have hm : ‖R1 n‖ = ‖m‖ := by
    rw [R1.norm_map, hn, EuclideanSpace.norm_eq m, Fin.sum_univ_three]
    simp [m, Real.sq_sqrt (sub_nonneg.2 hnu2)]
  let R2 : E3 ≃ₗᵢ[ℝ] E3 := (ℝ ∙ (R1 n - m))ᗮ.reflection
  have hR2 : R2 (R1 n) = m := Submodule.reflection_sub hm
  have hR2e : R2 e = e := by
    refine Submodule.reflection_mem_subspace_eq_self ?_
    rw [Submodule.mem_orthogonal_singleton_iff_inner_left, hin]
    simp [hz, m]
  let R : E3 ≃ₗᵢ[ℝ] E3 := R1.trans R2
  have hRk : R k = e := by
    show R2 (R1 k) = e
    rw [hR1, hR2e]
  have hRn : R n = m := hR2
  have hc (q : E3) : cosOf k q = (R q) 2 / ‖R q‖ := by
    rw [cosOf, ← R.inner_map_map, hRk, hin, R.norm_map, mul_div_mul_left _ _ hκ.ne']
  have hl (q : E3) : inner ℝ n q = Real.sqrt (1 - nu ^ 2) * (R q) 0 + nu * (R q) 2 := by
    rw [← R.inner_map_map, hRn, PiLp.inner_apply, Fin.sum_univ_three]
    simp [m, mul_comm]
  have hpre : R ⁻¹' {q : E3 | a ≤ ‖q‖ ∧ ‖q‖ ≤ b} = {q : E3 | a ≤ ‖q‖ ∧ ‖q‖ ≤ b} := by
    ext q
    simp only [Set.mem_preimage, Set.mem_ofPred_eq, R.norm_map]
  have hf : ∀ q, H ‖q‖ (cosOf k q) (inner ℝ n q) = H ‖R q‖ ((R q) 2 / ‖R q‖) (Real.sqrt (1 - nu ^ 2) * (R q) 0 + nu * (R q) 2) := fun q => by
    rw [hc, hl, R.norm_map]
  have hg : ∀ q, (azAvg fun phi => H ‖q‖ (cosOf k q) (‖q‖ * losCos nu (cosOf k q) phi)) =
      azAvg fun phi => H ‖R q‖ ((R q) 2 / ‖R q‖) (‖R q‖ * losCos nu ((R q) 2 / ‖R q‖) phi) := fun q => by
    rw [hc, R.norm_map]
  have hint := R.measurePreserving.setIntegral_preimage_emb R.toHomeomorph.measurableEmbedding
    (fun q => H ‖q‖ (q 2 / ‖q‖) (Real.sqrt (1 - nu ^ 2) * q 0 + nu * q 2)) {q : E3 | a ≤ ‖q‖ ∧ ‖q‖ ≤ b}
  have hintA := R.measurePreserving.setIntegral_preimage_emb R.toHomeomorph.measurableEmbedding
    (fun q => azAvg fun phi => H ‖q‖ (q 2 / ‖q‖) (‖q‖ * losCos nu (q 2 / ‖q‖) phi)) {q : E3 | a ≤ ‖q‖ ∧ ‖q‖ ≤ b}
  have hint' := R.measurePreserving.integrableOn_comp_preimage R.toHomeomorph.measurableEmbedding
    (f := fun q => H ‖q‖ (q 2 / ‖q‖) (Real.sqrt (1 - nu ^ 2) * q 0 + nu * q 2)) (s := {q : E3 | a ≤ ‖q‖ ∧ ‖q‖ ≤ b})
  rw [hpre] at hint hintA hint'
  simp only [hf, hg] at hi ⊢
  rw [hint, hintA, integral_azimuth_axis H nu a b ha hab (hint'.1 hi)]

end Verif
