import Verif.Proofs.Axial

/-!
Integrals over two wavevectors in the coordinates of the five-dimensional cube: spherical coordinates of the first one, modulus and polar
angle of the second one.
-/

namespace Verif

open MeasureTheory

/-- The open unit cube. -/
def cubeN (n : ℕ) : Set (Fin n → ℝ) := Set.univ.pi fun _ => Set.Ioo 0 1

theorem cubeN_measurable (n : ℕ) : MeasurableSet (cubeN n) := MeasurableSet.univ_pi fun _ => measurableSet_Ioo

theorem cubeN_finite (n : ℕ) : volume (cubeN n) < ⊤ := by
  unfold cubeN
  rw [Real.volume_pi_Ioo]
  exact ENNReal.prod_lt_top fun i _ => ENNReal.ofReal_lt_top

theorem mem_cubeN {n : ℕ} (u : Fin n → ℝ) : u ∈ cubeN n ↔ ∀ i, 0 < u i ∧ u i < 1 := by
  simp [cubeN, Set.mem_pi]

theorem integral_cubeN (n : ℕ) (i : Fin (n + 1)) (F : (Fin (n + 1) → ℝ) → ℝ) (hF : IntegrableOn F (cubeN (n + 1))) :
    ∫ u in cubeN (n + 1), F u = ∫ x in Set.Ioo (0 : ℝ) 1, ∫ v in cubeN n, F (i.insertNth x v) := by
  have m := volume_preserving_piFinSuccAbove (fun _ : Fin (n + 1) => ℝ) i
  have p : (MeasurableEquiv.piFinSuccAbove (fun _ : Fin (n + 1) => ℝ) i) ⁻¹' (Set.Ioo 0 1 ×ˢ cubeN n) = cubeN (n + 1) := by
    ext u
    simp only [Set.mem_preimage, Set.mem_prod, mem_cubeN, Set.mem_Ioo]
    rw [Fin.forall_iff_succAbove i]
    rfl
  have hs : ∀ u, F (i.insertNth ((MeasurableEquiv.piFinSuccAbove (fun _ : Fin (n + 1) => ℝ) i) u).1
      ((MeasurableEquiv.piFinSuccAbove (fun _ : Fin (n + 1) => ℝ) i) u).2) = F u := fun u => by
    congr 1
    exact (MeasurableEquiv.piFinSuccAbove (fun _ : Fin (n + 1) => ℝ) i).symm_apply_apply u
  have e := m.setIntegral_preimage_emb (MeasurableEquiv.measurableEmbedding _) (fun w : ℝ × (Fin n → ℝ) => F (i.insertNth w.1 w.2))
    (Set.Ioo 0 1 ×ˢ cubeN n)
  have hi := m.integrableOn_comp_preimage (MeasurableEquiv.measurableEmbedding _) (f := fun w : ℝ × (Fin n → ℝ) => F (i.insertNth w.1 w.2))
    (s := Set.Ioo 0 1 ×ˢ cubeN n)
  rw [p] at e hi
  have hc : ((fun w : ℝ × (Fin n → ℝ) => F (i.insertNth w.1 w.2)) ∘ (MeasurableEquiv.piFinSuccAbove (fun _ : Fin (n + 1) => ℝ) i)) = F :=
    funext hs
  rw [hc] at hi
  simp only [hs] at e
  rw [e, Measure.volume_eq_prod, setIntegral_prod _ (hi.1 hF)]

/-- Volume element of the spherical coordinates with logarithmic radius. -/
noncomputable def sphJac (a L x y : ℝ) : ℝ := L * Real.pi * (2 * Real.pi) * (a * Real.exp (L * x)) ^ 3 * Real.sin (Real.pi * y)

/-- The first wavevector. -/
noncomputable def pairP (a L : ℝ) (x : Fin 5 → ℝ) : E3 := WithLp.toLp 2 (sph a L ![x 0, x 1, x 2])

/-- The second wavevector, in the plane of azimuth zero. -/
noncomputable def flatQ (a L x y : ℝ) : E3 := WithLp.toLp 2 (sph a L ![x, y, 0])

theorem sph_norm (a L : ℝ) (ha : 0 < a) (u : Fin 3 → ℝ) : ‖(WithLp.toLp 2 (sph a L u) : E3)‖ = a * Real.exp (L * u 0) := by
  rw [EuclideanSpace.norm_eq, Fin.sum_univ_three]
  simp only [Real.norm_eq_abs, sq_abs]
  rw [sph_sq a L u, Real.sqrt_sq (by positivity)]

theorem sph_norm_mem (a b : ℝ) (ha : 0 < a) (hab : a < b) (u : Fin 3 → ℝ) (hu : 0 < u 0 ∧ u 0 < 1) :
    a ≤ ‖(WithLp.toLp 2 (sph a (Real.log (b / a)) u) : E3)‖ ∧ ‖(WithLp.toLp 2 (sph a (Real.log (b / a)) u) : E3)‖ ≤ b := by
  have hL : 0 < Real.log (b / a) := Real.log_pos ((one_lt_div ha).2 hab)
  rw [sph_norm _ _ ha]
  constructor
  · have : 1 ≤ Real.exp (Real.log (b / a) * u 0) := Real.one_le_exp (by have := hu.1; positivity)
    nlinarith
  · have : Real.exp (Real.log (b / a) * u 0) ≤ b / a := by
      rw [← Real.le_log_iff_exp_le (div_pos (ha.trans hab) ha)]
      nlinarith [hu.2]
    calc _ ≤ a * (b / a) := by gcongr
      _ = b := by field_simp

theorem sphJac_bound (a b : ℝ) (ha : 0 < a) (hab : a < b) (x y : ℝ) (hx : 0 < x ∧ x < 1) :
    |sphJac a (Real.log (b / a)) x y| ≤ Real.log (b / a) * Real.pi * (2 * Real.pi) * b ^ 3 := by
  have hL : 0 < Real.log (b / a) := Real.log_pos ((one_lt_div ha).2 hab)
  have h := (sph_norm_mem a b ha hab ![x, y, 0] hx).2
  rw [sph_norm _ _ ha] at h
  have h : a * Real.exp (Real.log (b / a) * x) ≤ b := h
  have hpi := Real.pi_pos
  have hb : 0 < b := ha.trans hab
  unfold sphJac
  rw [abs_mul, abs_of_pos (by positivity)]
  calc _ ≤ Real.log (b / a) * Real.pi * (2 * Real.pi) * (a * Real.exp (Real.log (b / a) * x)) ^ 3 * 1 := by
        gcongr
        exact Real.abs_sin_le_one _
    _ ≤ _ := by rw [mul_one]; gcongr

theorem sph_meas (a L : ℝ) : Measurable fun u : Fin 3 → ℝ => (WithLp.toLp 2 (sph a L u) : E3) := by
  have h : Continuous (sph a L) := by
    refine continuous_pi fun i => ?_
    fin_cases i <;> simp only [sph] <;> simp <;> fun_prop
  exact ((PiLp.continuous_toLp 2 (fun _ : Fin 3 => ℝ)).comp h).measurable

/-- A function invariant under the isometries that fix the third axis is determined by the modulus and the polar angle. -/
theorem flat_eq (a L : ℝ) (u : Fin 3 → ℝ) :
    ∃ R : E3 ≃ₗᵢ[ℝ] E3, (∀ c : ℝ, R !₂[0, 0, c] = !₂[0, 0, c]) ∧ R (WithLp.toLp 2 (sph a L u)) = flatQ a L (u 0) (u 1) := by
  let q : E3 := WithLp.toLp 2 (sph a L u)
  let e : E3 := flatQ a L (u 0) (u 1)
  have hn : ‖q‖ = ‖e‖ := by
    have h : ‖q‖ ^ 2 = ‖e‖ ^ 2 := by
      rw [EuclideanSpace.norm_sq_eq, EuclideanSpace.norm_sq_eq, Fin.sum_univ_three, Fin.sum_univ_three]
      simp only [Real.norm_eq_abs, sq_abs]
      exact (sph_sq a L u).trans (sph_sq a L ![u 0, u 1, 0]).symm
    rwa [sq_eq_sq₀ (norm_nonneg _) (norm_nonneg _)] at h
  refine ⟨(ℝ ∙ (q - e))ᗮ.reflection, fun c => ?_, Submodule.reflection_sub hn⟩
  rw [Submodule.reflection_eq_self_iff, Submodule.mem_orthogonal_singleton_iff_inner_right, PiLp.inner_apply, Fin.sum_univ_three]
  simp [q, e, flatQ, sph]

/-- The wavevectors of modulus between `a` and `b`. -/
def shellSet (a b : ℝ) : Set E3 := {q | a ≤ ‖q‖ ∧ ‖q‖ ≤ b}

theorem shellSet_finite (a b : ℝ) : volume (shellSet a b) < ⊤ :=
  (measure_mono fun q (hq : q ∈ shellSet a b) => by simpa using hq.2 : volume (shellSet a b) ≤ volume (Metric.closedBall (0 : E3) b)).trans_lt
    measure_closedBall_lt_top

/-- The integrand on the cube. -/
noncomputable def pairCube (a L : ℝ) (h : E3 → E3 → ℝ) (x : Fin 5 → ℝ) : ℝ :=
  h (pairP a L x) (flatQ a L (x 3) (x 4)) * (sphJac a L (x 0) (x 1) * sphJac a L (x 3) (x 4))

variable {a b : ℝ} {h : E3 → E3 → ℝ} {C : ℝ}

theorem pairP_meas (L : ℝ) : Measurable (pairP a L) := by
  have u1 : Measurable fun x : Fin 5 → ℝ => (![x 0, x 1, x 2] : Fin 3 → ℝ) := by
    rw [measurable_pi_iff]
    intro i
    fin_cases i
    · exact measurable_pi_apply (X := fun _ : Fin 5 => ℝ) 0
    · exact measurable_pi_apply (X := fun _ : Fin 5 => ℝ) 1
    · exact measurable_pi_apply (X := fun _ : Fin 5 => ℝ) 2
  exact (sph_meas a L).comp u1

theorem flatQ_meas (L : ℝ) : Measurable fun x : Fin 5 → ℝ => flatQ a L (x 3) (x 4) := by
  have u2 : Measurable fun x : Fin 5 → ℝ => (![x 3, x 4, 0] : Fin 3 → ℝ) := by
    rw [measurable_pi_iff]
    intro i
    fin_cases i
    · exact measurable_pi_apply (X := fun _ : Fin 5 => ℝ) 3
    · exact measurable_pi_apply (X := fun _ : Fin 5 => ℝ) 4
    · exact measurable_const
  exact (sph_meas a L).comp u2

theorem sphJac_meas (L : ℝ) (i j : Fin 5) : Measurable fun x : Fin 5 → ℝ => sphJac a L (x i) (x j) := by
  unfold sphJac
  fun_prop

theorem pairCube_meas (L : ℝ) (hm : Measurable fun z : E3 × E3 => h z.1 z.2) : Measurable (pairCube a L h) := by
  unfold pairCube
  refine Measurable.mul ?_ ?_
  · exact hm.comp ((pairP_meas L).prodMk (flatQ_meas L))
  · exact (sphJac_meas L 0 1).mul (sphJac_meas L 3 4)

theorem pairCube_bound (ha : 0 < a) (hab : a < b) (hC : ∀ p ∈ shellSet a b, ∀ q ∈ shellSet a b, |h p q| ≤ C) (x : Fin 5 → ℝ) (hx : x ∈ cubeN 5) :
    |pairCube a (Real.log (b / a)) h x| ≤ C * (Real.log (b / a) * Real.pi * (2 * Real.pi) * b ^ 3 * (Real.log (b / a) * Real.pi * (2 * Real.pi) * b ^ 3)) := by
  rw [mem_cubeN] at hx
  have h1 := hC (pairP a (Real.log (b / a)) x) (sph_norm_mem a b ha hab _ (hx 0)) (flatQ a (Real.log (b / a)) (x 3) (x 4))
    (sph_norm_mem a b ha hab _ (hx 3))
  have h2 := sphJac_bound a b ha hab (x 0) (x 1) (hx 0)
  have h3 := sphJac_bound a b ha hab (x 3) (x 4) (hx 3)
  unfold pairCube
  rw [abs_mul, abs_mul]
  have h0 := (abs_nonneg _).trans h1
  have h4 := (abs_nonneg _).trans h2
  gcongr

theorem pairCube_integrable (ha : 0 < a) (hab : a < b) (hm : Measurable fun z : E3 × E3 => h z.1 z.2)
    (hC : ∀ p ∈ shellSet a b, ∀ q ∈ shellSet a b, |h p q| ≤ C) : IntegrableOn (pairCube a (Real.log (b / a)) h) (cubeN 5) := by
  exact Measure.integrableOn_of_bounded (cubeN_finite 5).ne (pairCube_meas _ hm).aestronglyMeasurable
    ((ae_restrict_iff' (cubeN_measurable 5)).2 (Filter.Eventually.of_forall (pairCube_bound ha hab hC)))

theorem shellPair_integrable (hm : Measurable fun z : E3 × E3 => h z.1 z.2) (hC : ∀ p ∈ shellSet a b, ∀ q ∈ shellSet a b, |h p q| ≤ C) :
    IntegrableOn (fun z : E3 × E3 => h z.1 z.2) (shellSet a b ×ˢ shellSet a b) := by
  have hs : MeasurableSet (shellSet a b ×ˢ shellSet a b) := (shell_measurable a b).prod (shell_measurable a b)
  refine Measure.integrableOn_of_bounded (M := C) ?_ hm.aestronglyMeasurable
    ((ae_restrict_iff' hs).2 (Filter.Eventually.of_forall fun z hz => hC _ hz.1 _ hz.2))
  rw [Measure.volume_eq_prod, Measure.prod_prod]
  exact (ENNReal.mul_lt_top (shellSet_finite a b) (shellSet_finite a b)).ne

/-- The integral over the cube is the integral over both wavevectors, for functions invariant under the isometries that fix the third axis. -/
theorem pair_integral (ha : 0 < a) (hab : a < b) (hm : Measurable fun z : E3 × E3 => h z.1 z.2)
    (hC : ∀ p ∈ shellSet a b, ∀ q ∈ shellSet a b, |h p q| ≤ C)
    (hR : ∀ R : E3 ≃ₗᵢ[ℝ] E3, (∀ c : ℝ, R !₂[0, 0, c] = !₂[0, 0, c]) → ∀ p q, h (R p) (R q) = h p q) :
    ∫ x in cubeN 5, pairCube a (Real.log (b / a)) h x = ∫ z in shellSet a b ×ˢ shellSet a b, h z.1 z.2 := by
  set L := Real.log (b / a) with hL
  let g : E3 → ℝ := fun q => ∫ p in shellSet a b, h p q
  have hpair := shellPair_integrable hm hC
  have hg : IntegrableOn g (shellSet a b) := by
    rw [IntegrableOn, Measure.volume_eq_prod, ← Measure.prod_restrict] at hpair
    exact hpair.integral_prod_right
  have hgR : ∀ u : Fin 3 → ℝ, g (WithLp.toLp 2 (sph a L u)) = g (flatQ a L (u 0) (u 1)) := fun u => by
    obtain ⟨R, h1, h2⟩ := flat_eq a L u
    have hpre : R ⁻¹' shellSet a b = shellSet a b := by
      ext q
      simp only [shellSet, Set.mem_preimage, Set.mem_ofPred_eq, R.norm_map]
    have hint := R.measurePreserving.setIntegral_preimage_emb R.toHomeomorph.measurableEmbedding (fun p => h p (flatQ a L (u 0) (u 1)))
      (shellSet a b)
    rw [hpre] at hint
    simp only [g]
    rw [← hint]
    refine integral_congr_ae (Filter.Eventually.of_forall fun p => ?_)
    show _ = h (R p) _
    rw [← h2, hR R h1]
  have hi' := integrable_shell a b ha hab g hg
  simp only [← hL, hgR] at hi'
  obtain ⟨-, h3⟩ := integral_cube3_all (fun x y => g (flatQ a L x y) * sphJac a L x y) hi'
  have hpair' := hpair
  rw [IntegrableOn, Measure.volume_eq_prod, ← Measure.prod_restrict] at hpair'
  rw [Measure.volume_eq_prod, ← Measure.prod_restrict, integral_prod_symm _ hpair']
  have hrhs : ∫ q in shellSet a b, ∫ p in shellSet a b, h p q = ∫ x in Set.Ioo (0 : ℝ) 1, ∫ y in Set.Ioo (0 : ℝ) 1, g (flatQ a L x y) * sphJac a L x y := by
    rw [← h3]
    refine (integral_shell a b ha hab g).trans (integral_congr_ae (Filter.Eventually.of_forall fun u => ?_))
    simp only [← hL, hgR, sphJac]
  refine Eq.trans ?_ hrhs.symm
  rw [integral_cubeN 4 3 _ (pairCube_integrable ha hab hm hC)]
  refine setIntegral_congr_fun measurableSet_Ioo fun x hx => ?_
  have hi4 : IntegrableOn (fun v : Fin 4 → ℝ => pairCube a L h ((3 : Fin 5).insertNth x v)) (cubeN 4) := by
    refine Measure.integrableOn_of_bounded (cubeN_finite 4).ne ?_
      ((ae_restrict_iff' (cubeN_measurable 4)).2 (Filter.Eventually.of_forall fun v hv => pairCube_bound ha hab hC _ ?_))
    · refine ((pairCube_meas L hm).comp ?_).aestronglyMeasurable
      exact (MeasurableEquiv.piFinSuccAbove (fun _ : Fin 5 => ℝ) 3).symm.measurable.comp (measurable_const.prodMk measurable_id)
    · rw [mem_cubeN, Fin.forall_iff_succAbove 3]
      rw [mem_cubeN] at hv
      simpa using ⟨hx, hv⟩
  show ∫ v in cubeN 4, _ = _
  rw [integral_cubeN 3 3 _ hi4]
  refine setIntegral_congr_fun measurableSet_Ioo fun y hy => ?_
  show ∫ v in cubeN 3, _ = _
  have hv : ∀ v : Fin 3 → ℝ, pairCube a L h ((3 : Fin 5).insertNth x ((3 : Fin 4).insertNth y v)) =
      h (WithLp.toLp 2 (sph a L v)) (flatQ a L x y) * sphJac a L (v 0) (v 1) * sphJac a L x y := fun v => by
    have : (![v 0, v 1, v 2] : Fin 3 → ℝ) = v := by ext i; fin_cases i <;> rfl
    show h (WithLp.toLp 2 (sph a L ![v 0, v 1, v 2])) (flatQ a L x y) * (sphJac a L (v 0) (v 1) * sphJac a L x y) = _
    rw [this]
    ring
  simp only [hv]
  rw [integral_mul_const]
  congr 1
  exact (integral_shell a b ha hab fun p => h p (flatQ a L x y)).symm

end Verif
