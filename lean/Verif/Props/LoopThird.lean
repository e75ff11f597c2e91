import Verif.Proofs.ThirdKernel
import Mathlib.MeasureTheory.Measure.Lebesgue.VolumeOfBalls
import Mathlib.Analysis.Real.Pi.Bounds

/-!
# C74 – the third-order term, from the Monte-Carlo integrand to the loop integral
-/

namespace Verif

open MeasureTheory Spec

/-- C74: the integrand of the third-order term: two symmetrised third-order kernels of perturbation theory and three linear spectra,
for three wavevectors whose sum is `k`. -/
noncomputable def integrand3 (P : ℝ → ℝ) (a b : Field) (k p q : E3) : ℝ :=
  sptSym3 a (toVec p) (toVec q) (toVec (k - p - q)) * sptSym3 b (toVec p) (toVec q) (toVec (k - p - q)) * (P ‖p‖ * P ‖q‖ * P ‖k - p - q‖)

/-- C74: the third-order term, `6 ∫ d³p d³q / (2π)⁶`, over the wavevectors which, with the remaining one, are in the range. -/
noncomputable def loop3 (P : ℝ → ℝ) (a b : Field) (k : E3) (q0 q1 : ℝ) : ℝ :=
  6 / (2 * Real.pi) ^ 6 * ∫ z in region3 k q0 q1, integrand3 P a b k z.1 z.2

/-- The integrand with the kernels of the code. -/
noncomputable def coded3 (P : ℝ → ℝ) (a b : Field) (k p q : E3) : ℝ :=
  F3Sym a (toVec p) (toVec q) (toVec (k - p - q)) * F3Sym b (toVec p) (toVec q) (toVec (k - p - q)) * (P ‖p‖ * P ‖q‖ * P ‖k - p - q‖)

theorem tiny_meas' {X : Type*} [MeasurableSpace X] (f : X → E3) (hf : Measurable f) : MeasurableSet {q | tiny (toVec (f q))} := by
  have h : ∀ g : X → ℝ, Measurable g → MeasurableSet {q | |g q| < (eps : ℝ)} := fun g hg => by
    have : Measurable fun x => |g x| := continuous_abs.measurable.comp hg
    exact measurableSet_lt this measurable_const
  have hc : ∀ i : Fin 3, Measurable fun x => f x i := fun i => by fun_prop
  exact (h _ (hc 0)).inter ((h _ (hc 1)).inter (h _ (hc 2)))

theorem F3_meas' {X : Type*} [MeasurableSpace X] (a : Field) (f g h : X → E3) (hf : Measurable f) (hg : Measurable g) (hh : Measurable h) :
    Measurable fun q => F3 a (toVec (f q)) (toVec (g q)) (toVec (h q)) := by
  unfold F3
  simp only [← toVec_add]
  refine Measurable.ite ((tiny_meas' _ (by fun_prop)).union (tiny_meas' _ (by fun_prop))) measurable_const ?_
  unfold F2Fast
  simp only [toVec_dot]
  fun_prop

theorem F3Sym_meas' {X : Type*} [MeasurableSpace X] (a : Field) (f g h : X → E3) (hf : Measurable f) (hg : Measurable g) (hh : Measurable h) :
    Measurable fun q => F3Sym a (toVec (f q)) (toVec (g q)) (toVec (h q)) :=
  (((F3_meas' a f g h hf hg hh).add (F3_meas' a h f g hh hf hg)).add (F3_meas' a g h f hg hh hf)).div_const 3

theorem rest_meas (k : E3) : Measurable fun z : E3 × E3 => k - z.1 - z.2 := (measurable_const.sub measurable_fst).sub measurable_snd

theorem spectra_meas {P : ℝ → ℝ} (hP : Measurable P) (k : E3) : Measurable fun z : E3 × E3 => P ‖z.1‖ * P ‖z.2‖ * P ‖k - z.1 - z.2‖ :=
  ((hP.comp measurable_fst.norm).mul (hP.comp measurable_snd.norm)).mul (hP.comp (rest_meas k).norm)

theorem integrand3_meas {P : ℝ → ℝ} (hP : Measurable P) (a b : Field) (k : E3) : Measurable fun z : E3 × E3 => integrand3 P a b k z.1 z.2 :=
  ((sptSym3_meas a _ _ _ measurable_fst measurable_snd (rest_meas k)).mul (sptSym3_meas b _ _ _ measurable_fst measurable_snd (rest_meas k))).mul
    (spectra_meas hP k)

theorem coded3_meas {P : ℝ → ℝ} (hP : Measurable P) (a b : Field) (k : E3) : Measurable fun z : E3 × E3 => coded3 P a b k z.1 z.2 :=
  ((F3Sym_meas' a _ _ _ measurable_fst measurable_snd (rest_meas k)).mul (F3Sym_meas' b _ _ _ measurable_fst measurable_snd (rest_meas k))).mul
    (spectra_meas hP k)

theorem dot_range {q0 q1 : ℝ} (h0 : 0 < q0) {p : E3} (hp : p ∈ shellSet q0 q1) : q0 ^ 2 ≤ (toVec p).dot (toVec p) ∧ (toVec p).dot (toVec p) ≤ q1 ^ 2 := by
  rw [toVec_dot, real_inner_self_eq_norm_sq]
  exact ⟨pow_le_pow_left₀ h0.le hp.1 2, pow_le_pow_left₀ (norm_nonneg _) hp.2 2⟩

/-- A product of two kernels and three spectra. -/
theorem product_bound {F G A B C D M : ℝ} (hF : |F| ≤ D) (hG : |G| ≤ D) (hA : |A| ≤ M) (hB : |B| ≤ M) (hC : |C| ≤ M) :
    |F * G * (A * B * C)| ≤ D ^ 2 * M ^ 3 := by
  have hD : 0 ≤ D := (abs_nonneg _).trans hF
  have hM : 0 ≤ M := (abs_nonneg _).trans hA
  rw [abs_mul, abs_mul, abs_mul, abs_mul]
  calc |F| * |G| * (|A| * |B| * |C|) ≤ D * D * (M * M * M) := by gcongr
    _ = _ := by ring

theorem kernel_const {q0 q1 : ℝ} : (8 * (q1 ^ 2 / q0 ^ 2) ^ 3) ^ 2 = 64 * (q1 / q0) ^ 12 := by
  rw [← div_pow]
  ring

theorem integrand3_bound {P : ℝ → ℝ} {q0 q1 M : ℝ} (h0 : 0 < q0) (hM : ∀ x, q0 ≤ x → x ≤ q1 → |P x| ≤ M) (a b : Field) (k : E3) (z : E3 × E3)
    (hz : z ∈ region3 k q0 q1) : |integrand3 P a b k z.1 z.2| ≤ 64 * (q1 / q0) ^ 12 * M ^ 3 := by
  obtain ⟨h1, h2, h3⟩ := hz
  have b1 := dot_range h0 h1
  have b2 := dot_range h0 h2
  have b3 := dot_range h0 h3
  have hb : ∀ c, _ := fun c => sptSym3_bound c _ _ (pow_pos h0 2) _ _ _ b1.1 b1.2 b2.1 b2.2 b3.1 b3.2
  rw [← kernel_const]
  exact product_bound (hb a) (hb b) (hM _ h1.1 h1.2) (hM _ h2.1 h2.2) (hM _ h3.1 h3.2)

theorem coded3_bound {P : ℝ → ℝ} {q0 q1 M : ℝ} (h0 : 0 < q0) (hM : ∀ x, q0 ≤ x → x ≤ q1 → |P x| ≤ M) (a b : Field) (k : E3) (z : E3 × E3)
    (hz : z ∈ region3 k q0 q1) : |coded3 P a b k z.1 z.2| ≤ 64 * (q1 / q0) ^ 12 * M ^ 3 := by
  obtain ⟨h1, h2, h3⟩ := hz
  have b1 := dot_range h0 h1
  have b2 := dot_range h0 h2
  have b3 := dot_range h0 h3
  have hb : ∀ c, _ := fun c => F3Sym_bound c _ _ (pow_pos h0 2) _ _ _ b1.1 b1.2 b2.1 b2.2 b3.1 b3.2
  rw [← kernel_const]
  exact product_bound (hb a) (hb b) (hM _ h1.1 h1.2) (hM _ h2.1 h2.2) (hM _ h3.1 h3.2)

theorem integrand3_swap (P : ℝ → ℝ) (a b : Field) (k p q : E3) : integrand3 P a b k p (k - p - q) = integrand3 P a b k p q := by
  have hs : ∀ c u v w, sptSym3 c u v w = sptSym3 c u w v := fun c u v w => by
    unfold sptSym3
    ring
  unfold integrand3
  rw [sub_sub_cancel, hs a, hs b]
  ring

theorem integrand3_iso (P : ℝ → ℝ) (a b : Field) (R : E3 ≃ₗᵢ[ℝ] E3) (k p q : E3) :
    integrand3 P a b (R k) (R p) (R q) = integrand3 P a b k p q := by
  unfold integrand3
  rw [← map_sub, ← map_sub, sptSym3_iso, sptSym3_iso, R.norm_map, R.norm_map, R.norm_map]

theorem mem_shell_iso (R : E3 ≃ₗᵢ[ℝ] E3) (q0 q1 : ℝ) (p : E3) : R p ∈ shellSet q0 q1 ↔ p ∈ shellSet q0 q1 := by
  show q0 ≤ ‖R p‖ ∧ ‖R p‖ ≤ q1 ↔ _
  rw [R.norm_map]
  rfl

theorem halfOf_iso (R : E3 ≃ₗᵢ[ℝ] E3) (P : ℝ → ℝ) (a b : Field) (k : E3) (hR : R k = k) (q0 q1 : ℝ) (p q : E3) :
    halfOf k q0 q1 (integrand3 P a b k) (R p) (R q) = halfOf k q0 q1 (integrand3 P a b k) p q := by
  have e : k - R p - R q = R (k - p - q) := by rw [map_sub, map_sub, hR]
  have i := integrand3_iso P a b R k p q
  rw [hR] at i
  unfold halfOf
  rw [e, mem_shell_iso, R.norm_map, R.norm_map, i]

/-- The loop integral depends on the modulus of `k` only. -/
theorem loop3_iso (P : ℝ → ℝ) (a b : Field) (R : E3 ≃ₗᵢ[ℝ] E3) (k : E3) (q0 q1 : ℝ) : loop3 P a b (R k) q0 q1 = loop3 P a b k q0 q1 := by
  have hp : MeasurePreserving (Prod.map R R) (volume : Measure (E3 × E3)) volume := R.measurePreserving.prod R.measurePreserving
  have he : MeasurableEmbedding (Prod.map R R : E3 × E3 → E3 × E3) :=
    (MeasurableEquiv.prodCongr R.toHomeomorph.toMeasurableEquiv R.toHomeomorph.toMeasurableEquiv).measurableEmbedding
  have h := hp.setIntegral_preimage_emb he (fun z => integrand3 P a b (R k) z.1 z.2) (region3 (R k) q0 q1)
  have hs : Prod.map R R ⁻¹' region3 (R k) q0 q1 = region3 k q0 q1 := by
    ext z
    show R z.1 ∈ _ ∧ R z.2 ∈ _ ∧ R k - R z.1 - R z.2 ∈ _ ↔ _
    rw [← map_sub, ← map_sub, mem_shell_iso, mem_shell_iso, mem_shell_iso]
    rfl
  unfold loop3
  rw [← h, hs]
  congr 2
  funext z
  exact integrand3_iso P a b R k z.1 z.2

/-! ## The guard of the coded kernel -/

/-- Where one of the sums of two wavevectors is very short. -/
def near3 (k : E3) : Set (E3 × E3) := {z | ‖k - z.1‖ < 2 * eps ∨ ‖z.1 + z.2‖ < 2 * eps ∨ ‖k - z.2‖ < 2 * eps}

theorem eps_pos' : (0 : ℝ) < eps := by unfold eps; norm_num

theorem tiny_norm {v : E3} (h : tiny (toVec v)) : ‖v‖ < 2 * eps := by
  obtain ⟨h0, h1, h2⟩ := h
  simp only [toVec] at h0 h1 h2
  have e := eps_pos'
  have s : ∀ x : ℝ, |x| < eps → x ^ 2 < eps ^ 2 := fun x hx => by rw [← sq_abs]; exact pow_lt_pow_left₀ hx (abs_nonneg _) two_ne_zero
  rw [EuclideanSpace.norm_eq, Fin.sum_univ_three, Real.sqrt_lt' (by linarith)]
  simp only [Real.norm_eq_abs, sq_abs]
  have := s _ h0
  have := s _ h1
  have := s _ h2
  nlinarith

theorem near3_meas (k : E3) : MeasurableSet (near3 k) := by
  have h : ∀ f : E3 × E3 → E3, Measurable f → MeasurableSet {z | ‖f z‖ < 2 * eps} := fun f hf => measurableSet_lt hf.norm measurable_const
  exact (h (fun z => k - z.1) (by fun_prop)).union ((h (fun z => z.1 + z.2) (by fun_prop)).union (h (fun z => k - z.2) (by fun_prop)))

/-- Away from the guard the coded integrand is the one of perturbation theory. -/
theorem coded3_eq {P : ℝ → ℝ} {q0 q1 : ℝ} (h0 : 0 < q0) (a b : Field) (k : E3) (hk : ¬ tiny (toVec k)) (z : E3 × E3) (hz : z ∈ region3 k q0 q1)
    (hn : z ∉ near3 k) : coded3 P a b k z.1 z.2 = integrand3 P a b k z.1 z.2 := by
  obtain ⟨h1, h2, h3⟩ := hz
  have hd : ∀ p ∈ shellSet q0 q1, (toVec p).dot (toVec p) ≠ 0 := fun p hp => ((pow_pos h0 2).trans_le (dot_range h0 hp).1).ne'
  have n : ∀ v : E3, ¬ ‖v‖ < 2 * eps → ¬ tiny (toVec v) := fun v hv h => hv (tiny_norm h)
  have e : ∀ c, F3Sym c (toVec z.1) (toVec z.2) (toVec (k - z.1 - z.2)) = sptSym3 c (toVec z.1) (toVec z.2) (toVec (k - z.1 - z.2)) := fun c => by
    refine C18_F3_spt c _ _ _ (hd _ h1) (hd _ h2) (hd _ h3) ?_ ?_ ?_ ?_
    · exact n (z.1 + z.2) fun h => hn (Or.inr (Or.inl h))
    · refine n (z.2 + (k - z.1 - z.2)) fun h => hn (Or.inl ?_)
      rwa [show z.2 + (k - z.1 - z.2) = k - z.1 by abel] at h
    · refine n ((k - z.1 - z.2) + z.1) fun h => hn (Or.inr (Or.inr ?_))
      rwa [show (k - z.1 - z.2) + z.1 = k - z.2 by abel] at h
    · show ¬ tiny (toVec (z.1 + (z.2 + (k - z.1 - z.2))))
      rwa [show z.1 + (z.2 + (k - z.1 - z.2)) = k by abel]
  unfold coded3 integrand3
  rw [e, e]

theorem ball_real (x : E3) : volume.real (Metric.ball x (2 * eps)) = 4 / 3 * Real.pi * (2 * eps) ^ 3 := by
  have he := eps_pos'
  rw [measureReal_def, EuclideanSpace.volume_ball_fin_three, ENNReal.toReal_mul, ENNReal.toReal_pow, ENNReal.toReal_ofReal (by linarith),
    ENNReal.toReal_ofReal (by positivity)]
  ring

/-- A bound of the square of the third-order kernel where two of the wavevectors, of modulus close to `x`, nearly cancel. -/
noncomputable def nearBound (κ x : ℝ) : ℝ := 2304 * (κ ^ 6 / x ^ 6 + x ^ 2 / κ ^ 2)

theorem nearBound_nonneg (κ x : ℝ) : 0 ≤ nearBound κ x := by
  unfold nearBound
  have : 0 ≤ x ^ 6 := by positivity
  positivity

theorem nearBound_meas (κ : ℝ) : Measurable (nearBound κ) := by
  unfold nearBound
  fun_prop

/-- The square of the kernel bound. -/
theorem nearBound_spec {κ x : ℝ} (hκ : 0 < κ) (hx : 0 < x) :
    (2 * (κ * (2 * max x κ) / (min x κ / 2) ^ 2) * (1 + κ / (min x κ / 2))) ^ 2 ≤ nearBound κ x := by
  have hn : 0 < min x κ := lt_min hx hκ
  have hX : 0 < max x κ := lt_max_of_lt_left hx
  have h1 : 1 + κ / (min x κ / 2) ≤ 3 * (κ / min x κ) := by
    have : 1 ≤ κ / min x κ := (one_le_div hn).2 (min_le_right _ _)
    have e : κ / (min x κ / 2) = 2 * (κ / min x κ) := by field_simp
    linarith
  have h2 : 2 * (κ * (2 * max x κ) / (min x κ / 2) ^ 2) * (1 + κ / (min x κ / 2)) ≤ 48 * (κ ^ 2 * max x κ / min x κ ^ 3) := by
    calc _ ≤ 2 * (κ * (2 * max x κ) / (min x κ / 2) ^ 2) * (3 * (κ / min x κ)) := mul_le_mul_of_nonneg_left h1 (by positivity)
      _ = _ := by field_simp; norm_num
  refine (pow_le_pow_left₀ (by positivity) h2 2).trans ?_
  unfold nearBound
  rcases le_total x κ with h | h
  · rw [min_eq_left h, max_eq_right h]
    have : 0 ≤ x ^ 2 / κ ^ 2 := by positivity
    calc (48 * (κ ^ 2 * κ / x ^ 3)) ^ 2 = 2304 * (κ ^ 6 / x ^ 6) := by field_simp; norm_num
      _ ≤ _ := by linarith
  · rw [min_eq_right h, max_eq_left h]
    have : 0 ≤ κ ^ 6 / x ^ 6 := by positivity
    calc (48 * (κ ^ 2 * x / κ ^ 3)) ^ 2 = 2304 * (x ^ 2 / κ ^ 2) := by field_simp; norm_num
      _ ≤ _ := by linarith

/-- Both integrands, where the moduli are close to `x` or to the one of `k`. -/
theorem near_bound {P : ℝ → ℝ} {q0 q1 M x : ℝ} (hM : ∀ x, q0 ≤ x → x ≤ q1 → |P x| ≤ M) (a b : Field) (k : E3) (hk : k ≠ 0) (hx : 0 < x)
    (z : E3 × E3) (hz : z ∈ region3 k q0 q1)
    (hl : ∀ v ∈ [z.1, z.2, k - z.1 - z.2], min x ‖k‖ / 2 ≤ ‖v‖ ∧ ‖v‖ ≤ 2 * max x ‖k‖) :
    |integrand3 P a b k z.1 z.2| ≤ nearBound ‖k‖ x * M ^ 3 ∧ |coded3 P a b k z.1 z.2| ≤ nearBound ‖k‖ x * M ^ 3 := by
  obtain ⟨h1, h2, h3⟩ := hz
  have hκ : 0 < ‖k‖ := norm_pos_iff.2 hk
  have hn : 0 < min x ‖k‖ := lt_min hx hκ
  have hM0 : 0 ≤ M := (abs_nonneg _).trans (hM _ h1.1 h1.2)
  have hd : ∀ v ∈ [z.1, z.2, k - z.1 - z.2], (min x ‖k‖ / 2) ^ 2 ≤ (toVec v).dot (toVec v) ∧ (toVec v).dot (toVec v) ≤ (2 * max x ‖k‖) ^ 2 :=
    fun v hv => by
      rw [toVec_dot, real_inner_self_eq_norm_sq]
      exact ⟨pow_le_pow_left₀ (by positivity) (hl v hv).1 2, pow_le_pow_left₀ (norm_nonneg _) (hl v hv).2 2⟩
  have b1 := hd z.1 (by simp)
  have b2 := hd z.2 (by simp)
  have b3 := hd (k - z.1 - z.2) (by simp)
  have ht : (toVec z.1 + (toVec z.2 + toVec (k - z.1 - z.2))).dot (toVec z.1 + (toVec z.2 + toVec (k - z.1 - z.2))) = ‖k‖ ^ 2 := by
    rw [← toVec_add, ← toVec_add, toVec_dot, real_inner_self_eq_norm_sq, show z.1 + (z.2 + (k - z.1 - z.2)) = k by abel]
  have hmM : min x ‖k‖ / 2 ≤ 2 * max x ‖k‖ := by
    have := min_le_max (a := x) (b := ‖k‖)
    linarith
  have hb : ∀ c, _ := fun c => sym3_sharp c (min x ‖k‖ / 2) (2 * max x ‖k‖) ‖k‖ (by positivity) hκ.le _ _ _ ht b1.1 b1.2 b2.1 b2.2 b3.1 b3.2 hmM
  have hs := mul_le_mul_of_nonneg_right (nearBound_spec hκ hx) (pow_nonneg hM0 3)
  exact ⟨(product_bound (hb a).1 (hb b).1 (hM _ h1.1 h1.2) (hM _ h2.1 h2.2) (hM _ h3.1 h3.2)).trans hs,
    (product_bound (hb a).2 (hb b).2 (hM _ h1.1 h1.2) (hM _ h2.1 h2.2) (hM _ h3.1 h3.2)).trans hs⟩

open Classical in
/-- The bound of the difference of the integrands. -/
noncomputable def guardOf (M : ℝ) (k p q : E3) : ℝ :=
  4 * M ^ 3 * ((if ‖p + q‖ < 2 * eps then nearBound ‖k‖ ‖p‖ else 0) + (if ‖k - q‖ < 2 * eps then nearBound ‖k‖ ‖p‖ else 0) +
    if ‖k - p‖ < 2 * eps then nearBound ‖k‖ ‖q‖ else 0)

theorem guardOf_meas (M : ℝ) (k : E3) : Measurable fun z : E3 × E3 => guardOf M k z.1 z.2 := by
  unfold guardOf
  have h : ∀ f : E3 × E3 → E3, Measurable f → MeasurableSet {z | ‖f z‖ < 2 * eps} := fun f hf => measurableSet_lt hf.norm measurable_const
  have hn := nearBound_meas ‖k‖
  refine Measurable.const_mul (((Measurable.ite (h (fun z => z.1 + z.2) (by fun_prop)) (by fun_prop) measurable_const).add
    (Measurable.ite (h (fun z => k - z.2) (by fun_prop)) (by fun_prop) measurable_const)).add
    (Measurable.ite (h (fun z => k - z.1) (by fun_prop)) (by fun_prop) measurable_const)) _

/-- The difference of the integrands. -/
theorem half_diff {P : ℝ → ℝ} {q0 q1 M : ℝ} (h0 : 4 * eps ≤ q0) (hM : ∀ x, q0 ≤ x → x ≤ q1 → |P x| ≤ M) (a b : Field) (k : E3)
    (hk : 4 * eps ≤ ‖k‖) (ht : ¬ tiny (toVec k)) (p : E3) (hp : p ∈ shellSet q0 q1) (q : E3) (hq : q ∈ shellSet q0 q1) :
    |halfOf k q0 q1 (coded3 P a b k) p q - halfOf k q0 q1 (integrand3 P a b k) p q| ≤ guardOf M k p q := by
  classical
  have he := eps_pos'
  have hq0 : 0 < q0 := by linarith
  have hκ : 0 < ‖k‖ := by linarith
  have hk0 : k ≠ 0 := norm_pos_iff.1 hκ
  have hM0 : 0 ≤ M := (abs_nonneg _).trans (hM _ hp.1 hp.2)
  have hnn := nearBound_nonneg ‖k‖
  have hg : 0 ≤ guardOf M k p q := by
    unfold guardOf
    have ite0 : ∀ (c : Prop) (x : ℝ), 0 ≤ if c then nearBound ‖k‖ x else 0 := fun c x => by split <;> simp [hnn]
    exact mul_nonneg (by positivity) (add_nonneg (add_nonneg (ite0 _ _) (ite0 _ _)) (ite0 _ _))
  by_cases hc : ‖q‖ ≤ ‖k - p - q‖ ∧ k - p - q ∈ shellSet q0 q1
  swap
  · unfold halfOf
    rw [if_neg hc, if_neg hc, sub_self, abs_zero]
    exact hg
  have hz : (p, q) ∈ region3 k q0 q1 := ⟨hp, hq, hc.2⟩
  by_cases hn : (p, q) ∈ near3 k
  swap
  · unfold halfOf
    rw [if_pos hc, if_pos hc, coded3_eq hq0 a b k ht (p, q) hz hn, sub_self, abs_zero]
    exact hg
  -- two vectors which nearly cancel, of which one has a modulus at least twice the remainder
  have close : ∀ u v : E3, ‖u + v‖ < 2 * eps → 4 * eps ≤ ‖u‖ → ‖u‖ / 2 ≤ ‖v‖ ∧ ‖v‖ ≤ 2 * ‖u‖ := fun u v h h4 => by
    have t1 := norm_sub_le (u + v) u
    have t2 := norm_sub_le (u + v) v
    rw [add_sub_cancel_left] at t1
    rw [add_sub_cancel_right] at t2
    constructor <;> linarith
  have rng : ∀ x y : ℝ, 0 < x → (x / 2 ≤ y ∧ y ≤ 2 * x) → min x ‖k‖ / 2 ≤ y ∧ y ≤ 2 * max x ‖k‖ := fun x y _ h =>
    ⟨by linarith [min_le_left x ‖k‖], by linarith [le_max_left x ‖k‖]⟩
  have rngk : ∀ x y : ℝ, (‖k‖ / 2 ≤ y ∧ y ≤ 2 * ‖k‖) → min x ‖k‖ / 2 ≤ y ∧ y ≤ 2 * max x ‖k‖ := fun x y h =>
    ⟨by linarith [min_le_right x ‖k‖], by linarith [le_max_right x ‖k‖]⟩
  have hp4 : 4 * eps ≤ ‖p‖ := h0.trans hp.1
  have hq4 : 4 * eps ≤ ‖q‖ := h0.trans hq.1
  have self : ∀ x : ℝ, 0 < x → x / 2 ≤ x ∧ x ≤ 2 * x := fun x hx => ⟨by linarith, by linarith⟩
  have hpp : 0 < ‖p‖ := by linarith
  have hqp : 0 < ‖q‖ := by linarith
  have fin : ∀ x, (|integrand3 P a b k p q| ≤ nearBound ‖k‖ x * M ^ 3 ∧ |coded3 P a b k p q| ≤ nearBound ‖k‖ x * M ^ 3) →
      |halfOf k q0 q1 (coded3 P a b k) p q - halfOf k q0 q1 (integrand3 P a b k) p q| ≤ 4 * M ^ 3 * nearBound ‖k‖ x := fun x h => by
    unfold halfOf
    rw [if_pos hc, if_pos hc]
    have h1 := abs_le.1 h.1
    have h2 := abs_le.1 h.2
    rw [abs_le]
    constructor <;> nlinarith
  have hM3 : 0 ≤ 4 * M ^ 3 := by positivity
  have ite0 : ∀ (c : Prop) (x : ℝ), 0 ≤ if c then nearBound ‖k‖ x else 0 := fun c x => by split <;> simp [hnn]
  have i1 := ite0 (‖p + q‖ < 2 * eps) ‖p‖
  have i2 := ite0 (‖k - q‖ < 2 * eps) ‖p‖
  have i3 := ite0 (‖k - p‖ < 2 * eps) ‖q‖
  rcases hn with hn | hn | hn <;> dsimp only at hn
  · -- `p` close to `k`
    have c1 := close k (-p) (by rwa [← sub_eq_add_neg]) hk
    have c2 := close q (k - p - q) (by rwa [add_sub_cancel]) hq4
    rw [norm_neg] at c1
    refine (fin ‖q‖ (near_bound hM a b k hk0 hqp (p, q) hz ?_)).trans ?_
    · intro v hv
      simp only [List.mem_cons, List.not_mem_nil, or_false] at hv
      rcases hv with rfl | rfl | rfl
      · exact rngk _ _ c1
      · exact rng _ _ hqp (self _ hqp)
      · exact rng _ _ hqp c2
    · unfold guardOf
      refine mul_le_mul_of_nonneg_left ?_ hM3
      rw [if_pos hn] at i3 ⊢
      linarith
  · have c1 := close p q hn hp4
    have c2 := close k (-(k - p - q)) (by rwa [show k + -(k - p - q) = p + q by abel]) hk
    rw [norm_neg] at c2
    refine (fin ‖p‖ (near_bound hM a b k hk0 hpp (p, q) hz ?_)).trans ?_
    · intro v hv
      simp only [List.mem_cons, List.not_mem_nil, or_false] at hv
      rcases hv with rfl | rfl | rfl
      · exact rng _ _ hpp (self _ hpp)
      · exact rng _ _ hpp c1
      · exact rngk _ _ c2
    · unfold guardOf
      refine mul_le_mul_of_nonneg_left ?_ hM3
      rw [if_pos hn] at i1 ⊢
      linarith
  · have c1 := close k (-q) (by rwa [← sub_eq_add_neg]) hk
    have c2 := close p (k - p - q) (by rwa [show p + (k - p - q) = k - q by abel]) hp4
    rw [norm_neg] at c1
    refine (fin ‖p‖ (near_bound hM a b k hk0 hpp (p, q) hz ?_)).trans ?_
    · intro v hv
      simp only [List.mem_cons, List.not_mem_nil, or_false] at hv
      rcases hv with rfl | rfl | rfl
      · exact rng _ _ hpp (self _ hpp)
      · exact rngk _ _ c1
      · exact rng _ _ hpp c2
    · unfold guardOf
      refine mul_le_mul_of_nonneg_left ?_ hM3
      rw [if_pos hn] at i2 ⊢
      linarith

/-- The integral of the bound over a shell. -/
theorem nearBound_shell {q0 q1 κ : ℝ} (h0 : 0 < q0) (h1 : q0 < q1) (hκ : 0 < κ) :
    IntegrableOn (fun p : E3 => nearBound κ ‖p‖) (shellSet q0 q1) ∧
    ∫ p in shellSet q0 q1, nearBound κ ‖p‖ ≤ 2304 * (4 * Real.pi * (κ ^ 6 / (3 * q0 ^ 3) + q1 ^ 5 / (5 * κ ^ 2))) := by
  have hq1 := h0.trans h1
  have hi : IntegrableOn (fun p : E3 => nearBound κ ‖p‖) (shellSet q0 q1) := by
    refine Measure.integrableOn_of_bounded (M := 2304 * (κ ^ 6 / q0 ^ 6 + q1 ^ 2 / κ ^ 2)) (shellSet_finite q0 q1).ne
      ((nearBound_meas κ).comp measurable_norm).aestronglyMeasurable ?_
    filter_upwards [ae_restrict_mem (shell_measurable q0 q1)] with p hp
    rw [Real.norm_eq_abs, abs_of_nonneg (nearBound_nonneg _ _)]
    unfold nearBound
    have hp0 : 0 < ‖p‖ := h0.trans_le hp.1
    have hp1 := hp.1
    have hp2 := hp.2
    gcongr
  refine ⟨hi, ?_⟩
  have h := integral_axis (fun r _ => nearBound κ r) q0 q1 h0 h1 hi
  have hset : (shellSet q0 q1) = {q : E3 | q0 ≤ ‖q‖ ∧ ‖q‖ ≤ q1} := rfl
  rw [hset, h]
  have e : ∀ r ∈ Set.uIcc q0 q1, r ^ 2 * ∫ _ in (-1 : ℝ)..1, nearBound κ r = 4608 * (κ ^ 6 * r ^ (-4 : ℤ) + r ^ 4 / κ ^ 2) := fun r hr => by
    rw [Set.uIcc_of_le h1.le] at hr
    have : 0 < r := h0.trans_le hr.1
    rw [intervalIntegral.integral_const]
    unfold nearBound
    rw [smul_eq_mul, zpow_neg]
    norm_cast
    field_simp
    norm_num
  rw [intervalIntegral.integral_congr e, intervalIntegral.integral_const_mul, intervalIntegral.integral_add, intervalIntegral.integral_const_mul,
    intervalIntegral.integral_div, integral_pow, integral_zpow]
  · norm_num
    have a1 : 0 < (q1 ^ 3)⁻¹ := by positivity
    have a2 : 0 < q0 ^ 5 := by positivity
    have e1 : κ ^ 6 * (((q1 ^ 3)⁻¹ - (q0 ^ 3)⁻¹) / -3) ≤ κ ^ 6 / (3 * q0 ^ 3) := by
      rw [show κ ^ 6 / (3 * q0 ^ 3) = κ ^ 6 * ((q0 ^ 3)⁻¹ / 3) by field_simp]
      refine mul_le_mul_of_nonneg_left ?_ (by positivity)
      linarith
    have e2 : (q1 ^ 5 - q0 ^ 5) / 5 / κ ^ 2 ≤ q1 ^ 5 / (5 * κ ^ 2) := by
      rw [div_div]
      gcongr
      linarith
    have := Real.pi_pos
    have := mul_le_mul_of_nonneg_left (add_le_add e1 e2) (by positivity : 0 ≤ 2 * Real.pi * 4608)
    linarith
  · refine Or.inr ⟨by norm_num, ?_⟩
    rw [Set.uIcc_of_le h1.le]
    exact fun h => absurd h.1 (not_le.2 h0)
  · refine (ContinuousOn.intervalIntegrable ?_).const_mul _
    rw [Set.uIcc_of_le h1.le]
    exact fun x hx => (continuousAt_zpow₀ x _ (Or.inl (h0.trans_le hx.1).ne')).continuousWithinAt
  · exact Continuous.intervalIntegrable (by fun_prop) _ _

open Classical in
/-- A weight times the indicator of a small ball about a point depending on the other vector. -/
theorem ball_weight {q0 q1 : ℝ} (W : E3 → ℝ) (hW : Measurable W) (hW0 : ∀ p, 0 ≤ W p) (hi : IntegrableOn W (shellSet q0 q1)) (c : E3 → E3) (hc : Measurable c) :
    IntegrableOn (fun z : E3 × E3 => if ‖c z.1 - z.2‖ < 2 * eps then W z.1 else 0) (shellSet q0 q1 ×ˢ shellSet q0 q1) ∧
    ∫ z in shellSet q0 q1 ×ˢ shellSet q0 q1, (if ‖c z.1 - z.2‖ < 2 * eps then W z.1 else 0) ≤
      4 / 3 * Real.pi * (2 * eps) ^ 3 * ∫ p in shellSet q0 q1, W p := by
  have hs : MeasurableSet (shellSet q0 q1) := shell_measurable q0 q1
  have hset : MeasurableSet {z : E3 × E3 | ‖c z.1 - z.2‖ < 2 * eps} :=
    measurableSet_lt ((hc.comp measurable_fst).sub measurable_snd).norm measurable_const
  have hm : Measurable fun z : E3 × E3 => if ‖c z.1 - z.2‖ < 2 * eps then W z.1 else 0 :=
    Measurable.ite hset (hW.comp measurable_fst) measurable_const
  have hone : IntegrableOn (fun _ : E3 => (1 : ℝ)) (shellSet q0 q1) := integrableOn_const (shellSet_finite q0 q1).ne
  have hbig : IntegrableOn (fun z : E3 × E3 => W z.1 * 1) (shellSet q0 q1 ×ˢ shellSet q0 q1) := by
    unfold IntegrableOn
    rw [Measure.volume_eq_prod, ← Measure.prod_restrict]
    exact Integrable.mul_prod hi hone
  have hint : IntegrableOn (fun z : E3 × E3 => if ‖c z.1 - z.2‖ < 2 * eps then W z.1 else 0) (shellSet q0 q1 ×ˢ shellSet q0 q1) := by
    refine Integrable.mono hbig hm.aestronglyMeasurable (Filter.Eventually.of_forall fun z => ?_)
    rw [mul_one, Real.norm_eq_abs, Real.norm_eq_abs]
    split
    · exact le_rfl
    · rw [abs_zero]
      exact abs_nonneg _
  refine ⟨hint, ?_⟩
  have hint' := hint
  rw [Measure.volume_eq_prod] at hint' ⊢
  rw [setIntegral_prod _ hint', ← integral_const_mul]
  refine setIntegral_mono_on ?_ (hi.const_mul _) hs fun p _ => ?_
  · have := Integrable.integral_prod_left (μ := volume.restrict (shellSet q0 q1)) (ν := volume.restrict (shellSet q0 q1)) (by rw [Measure.prod_restrict]; exact hint')
    exact this
  · have e : (fun q : E3 => if ‖c p - q‖ < 2 * eps then W p else 0) = (Metric.ball (c p) (2 * eps)).indicator fun _ => W p := by
      funext q
      simp only [Set.indicator, Metric.mem_ball, dist_eq_norm, norm_sub_rev q]
    simp only [e]
    rw [setIntegral_indicator measurableSet_ball, setIntegral_const, smul_eq_mul, ← ball_real (c p)]
    exact mul_le_mul_of_nonneg_right (measureReal_mono Set.inter_subset_right measure_ball_lt_top.ne) (hW0 p)

/-- The integral of the bound of the difference. -/
theorem guardOf_integral {q0 q1 M : ℝ} (h0 : 0 < q0) (h1 : q0 < q1) (hM : 0 ≤ M) (k : E3) (hk : k ≠ 0) :
    ∫ z in shellSet q0 q1 ×ˢ shellSet q0 q1, guardOf M k z.1 z.2 ≤
      4 * M ^ 3 * (3 * (4 / 3 * Real.pi * (2 * eps) ^ 3 * (2304 * (4 * Real.pi * (‖k‖ ^ 6 / (3 * q0 ^ 3) + q1 ^ 5 / (5 * ‖k‖ ^ 2)))))) := by
  classical
  obtain ⟨hi, hb⟩ := nearBound_shell h0 h1 (norm_pos_iff.2 hk)
  have hW : Measurable fun p : E3 => nearBound ‖k‖ ‖p‖ := (nearBound_meas _).comp measurable_norm
  have hW0 : ∀ p : E3, 0 ≤ nearBound ‖k‖ ‖p‖ := fun p => nearBound_nonneg _ _
  obtain ⟨j1, b1⟩ := ball_weight _ hW hW0 hi (fun p => -p) measurable_neg
  obtain ⟨j2, b2⟩ := ball_weight _ hW hW0 hi (fun _ => k) measurable_const
  have n1 : ∀ z : E3 × E3, ‖-z.1 - z.2‖ = ‖z.1 + z.2‖ := fun z => by rw [← norm_neg]; congr 1; abel
  simp only [n1] at j1 b1
  have hsw : ∀ f : E3 × E3 → ℝ, ∫ z in shellSet q0 q1 ×ˢ shellSet q0 q1, f z.swap = ∫ z in shellSet q0 q1 ×ˢ shellSet q0 q1, f z := fun f => by
    rw [Measure.volume_eq_prod]
    exact setIntegral_prod_swap _ _ f
  have j3 : IntegrableOn (fun z : E3 × E3 => if ‖k - z.1‖ < 2 * eps then nearBound ‖k‖ ‖z.2‖ else 0) (shellSet q0 q1 ×ˢ shellSet q0 q1) := by
    have := j2
    unfold IntegrableOn at this ⊢
    rw [Measure.volume_eq_prod, ← Measure.prod_restrict] at this ⊢
    exact this.swap
  have b3 := hsw fun z => if ‖k - z.2‖ < 2 * eps then nearBound ‖k‖ ‖z.1‖ else 0
  dsimp only [Prod.fst_swap, Prod.snd_swap] at b3
  unfold guardOf
  have e := integral_add (j1.add j2) j3
  simp only [Pi.add_apply] at e
  rw [integral_const_mul, e, integral_add j1 j2, b3]
  refine mul_le_mul_of_nonneg_left ?_ (by positivity)
  have he := eps_pos'
  have := mul_le_mul_of_nonneg_left hb (by positivity : 0 ≤ 4 / 3 * Real.pi * (2 * (eps : ℝ)) ^ 3)
  linarith

/-! ## The integrand of the code -/

/-- The third axis. -/
noncomputable def axis3 (κ : ℝ) : E3 := !₂[0, 0, κ]

theorem axis3_vec (κ : ℝ) : toVec (axis3 κ) = ⟨0, 0, κ⟩ := by simp [toVec, axis3]

theorem axis3_not_tiny {κ : ℝ} (h : eps ≤ κ) : ¬ tiny (toVec (axis3 κ)) := by
  rw [axis3_vec]
  rintro ⟨-, -, h3⟩
  have := le_abs_self κ
  dsimp only at h3
  linarith

theorem g3Point_pair {q0 q1 : ℝ} (h0 : 0 < q0) (h1 : 0 < q1) (κ : ℝ) (x : Fin 5 → ℝ) :
    let s := g3Point κ (Real.log q0) (Real.log q1) x
    let L := Real.log (q1 / q0)
    s.p = q0 * Real.exp (L * x 0) ∧ s.q = q0 * Real.exp (L * x 3) ∧ s.pp = toVec (pairP q0 L x) ∧ s.qq = toVec (flatQ q0 L (x 3) (x 4)) := by
  have e : ∀ y, Real.exp (Real.log q0 + (Real.log q1 - Real.log q0) * y) = q0 * Real.exp (Real.log (q1 / q0) * y) := fun y => by
    rw [Real.exp_add, Real.exp_log h0, Real.log_div h1.ne' h0.ne']
  refine ⟨e _, e _, ?_, ?_⟩
  · have a1 : x 1 * Real.pi = Real.pi * x 1 := mul_comm _ _
    have a2 : x 2 * 2 * Real.pi = 2 * Real.pi * x 2 := by ring
    simp [g3Point, toVec, pairP, sph, e, a1, a2]
  · have a4 : x 4 * Real.pi = Real.pi * x 4 := mul_comm _ _
    simp [g3Point, toVec, flatQ, sph, e, a4]

/-- The sampled integrand is the one over the two wavevectors, with the volume factors. -/
theorem kernel_coded {t : Pk ℝ} {P : ℝ → ℝ} {interpol : Interpol} (hP : ∀ k, look t interpol k = .ok (P k)) (a b : Field) (κ q0 q1 : ℝ)
    (h0 : 0 < q0) (h1 : q0 ≤ q1) (x : Fin 5 → ℝ) (hx : ∀ i, 0 ≤ x i ∧ x i ≤ 1) :
    kernelGamma3 t interpol a b κ q0 q1 x =
      .ok (pairCube q0 (Real.log (q1 / q0)) (halfOf (axis3 κ) q0 q1 (coded3 P a b (axis3 κ))) x) := by
  classical
  have h := C52_region t P interpol hP a b κ q0 q1 h0 h1 x hx
  obtain ⟨e1, e2, e3, e4⟩ := g3Point_pair h0 (h0.trans_le h1) κ x
  dsimp only at h
  rw [h, e1, e2, e3, e4]
  congr 1
  have hr : (⟨0, 0, κ⟩ : Vec) - toVec (pairP q0 (Real.log (q1 / q0)) x) - toVec (flatQ q0 (Real.log (q1 / q0)) (x 3) (x 4)) =
      toVec (axis3 κ - pairP q0 (Real.log (q1 / q0)) x - flatQ q0 (Real.log (q1 / q0)) (x 3) (x 4)) := by
    rw [← axis3_vec]
    rfl
  unfold pairCube halfOf specG3 coded3 sphJac
  dsimp only
  rw [hr]
  simp only [toVec_modulus]
  rw [ite_zero_mul]
  refine if_congr Iff.rfl ?_ rfl
  ring

/-- The bound on the effect of the guard of the coded kernel. -/
noncomputable def guardError (q0 q1 M κ : ℝ) : ℝ :=
  6 / (2 * Real.pi) ^ 6 *
    (4 * M ^ 3 * (3 * (4 / 3 * Real.pi * (2 * eps) ^ 3 * (2304 * (4 * Real.pi * (κ ^ 6 / (3 * q0 ^ 3) + q1 ^ 5 / (5 * κ ^ 2)))))))

theorem axis3_norm {κ : ℝ} (h : 0 ≤ κ) : ‖axis3 κ‖ = κ := by
  rw [EuclideanSpace.norm_eq, Fin.sum_univ_three]
  simp [axis3, Real.sqrt_sq h]

theorem coded_integral {P : ℝ → ℝ} {q0 q1 M : ℝ} (hP : Measurable P) (h0 : 4 * eps ≤ q0) (h1 : q0 < q1)
    (hM : ∀ x, q0 ≤ x → x ≤ q1 → |P x| ≤ M) (a b : Field) (κ : ℝ) (hκ : 4 * eps ≤ κ) :
    IntegrableOn (pairCube q0 (Real.log (q1 / q0)) (halfOf (axis3 κ) q0 q1 (coded3 P a b (axis3 κ)))) (cubeN 5) ∧
    |6 / (2 * Real.pi) ^ 6 * (∫ x in cubeN 5, pairCube q0 (Real.log (q1 / q0)) (halfOf (axis3 κ) q0 q1 (coded3 P a b (axis3 κ))) x)
      - loop3 P a b (axis3 κ) q0 q1| ≤ guardError q0 q1 M κ := by
  classical
  have he := eps_pos'
  have hq0 : 0 < q0 := by linarith
  have hkn : ‖axis3 κ‖ = κ := axis3_norm (by linarith)
  set L := Real.log (q1 / q0) with hL
  set k := axis3 κ with hk
  set C := 64 * (q1 / q0) ^ 12 * M ^ 3 with hC
  have hk0 : k ≠ 0 := norm_pos_iff.1 (by rw [hkn]; linarith)
  have hM0 : 0 ≤ M := (abs_nonneg _).trans (hM q0 le_rfl h1.le)
  have hq1 : 0 < q1 := hq0.trans h1
  have hC0 : 0 ≤ C := by positivity
  have mi := halfOf_meas k q0 q1 (integrand3_meas hP a b k)
  have mc := halfOf_meas k q0 q1 (coded3_meas hP a b k)
  have bi := halfOf_bound (integrand3_bound hq0 hM a b k) hC0
  have bc := halfOf_bound (coded3_bound hq0 hM a b k) hC0
  have ii := pairCube_integrable hq0 h1 mi bi
  have ic := pairCube_integrable hq0 h1 mc bc
  have ei := pair_integral hq0 h1 mi bi fun R hR p q => halfOf_iso R P a b k (hR κ) q0 q1 p q
  rw [halfOf_integral (integrand3_meas hP a b k) (integrand3_bound hq0 hM a b k) hC0 (integrand3_swap P a b k)] at ei
  have mg := guardOf_meas M k
  have bg : ∃ B, ∀ p ∈ shellSet q0 q1, ∀ q ∈ shellSet q0 q1, |guardOf M k p q| ≤ B := by
    have hb : ∀ p ∈ shellSet q0 q1, nearBound ‖k‖ ‖p‖ ≤ 2304 * (‖k‖ ^ 6 / q0 ^ 6 + q1 ^ 2 / ‖k‖ ^ 2) := fun p hp => by
      unfold nearBound
      have hp0 : 0 < ‖p‖ := hq0.trans_le hp.1
      have hp1 := hp.1
      have hp2 := hp.2
      gcongr
    have hi : ∀ (c : Prop), ∀ p ∈ shellSet q0 q1, |if c then nearBound ‖k‖ ‖p‖ else 0| ≤ 2304 * (‖k‖ ^ 6 / q0 ^ 6 + q1 ^ 2 / ‖k‖ ^ 2) := fun c p hp => by
      split
      · rw [abs_of_nonneg (nearBound_nonneg _ _)]
        exact hb p hp
      · rw [abs_zero]
        positivity
    refine ⟨4 * M ^ 3 * (3 * (2304 * (‖k‖ ^ 6 / q0 ^ 6 + q1 ^ 2 / ‖k‖ ^ 2))), fun p hp q hq => ?_⟩
    unfold guardOf
    rw [abs_mul, abs_of_nonneg (by positivity : 0 ≤ 4 * M ^ 3)]
    refine mul_le_mul_of_nonneg_left ?_ (by positivity)
    refine (abs_add_three _ _ _).trans ?_
    linarith [hi (‖p + q‖ < 2 * eps) p hp, hi (‖k - q‖ < 2 * eps) p hp, hi (‖k - p‖ < 2 * eps) q hq]
  obtain ⟨B, bg⟩ := bg
  have ig := pairCube_integrable hq0 h1 mg bg
  have eg := pair_integral hq0 h1 mg bg fun R hR p q => by
    have hRk : R k = k := hR κ
    have e1 : ‖k - R p‖ = ‖k - p‖ := by conv_lhs => rw [← hRk, ← map_sub, R.norm_map]
    have e2 : ‖k - R q‖ = ‖k - q‖ := by conv_lhs => rw [← hRk, ← map_sub, R.norm_map]
    unfold guardOf
    rw [e1, e2, ← map_add, R.norm_map, R.norm_map, R.norm_map]
  have hcube : ∀ x ∈ cubeN 5, |pairCube q0 L (halfOf k q0 q1 (coded3 P a b k)) x - pairCube q0 L (halfOf k q0 q1 (integrand3 P a b k)) x| ≤
      pairCube q0 L (guardOf M k) x := fun x hx => by
    rw [mem_cubeN] at hx
    have hp : pairP q0 L x ∈ shellSet q0 q1 := sph_norm_mem q0 q1 hq0 h1 _ (hx 0)
    have hq : flatQ q0 L (x 3) (x 4) ∈ shellSet q0 q1 := sph_norm_mem q0 q1 hq0 h1 _ (hx 3)
    have hL0 : 0 ≤ L := Real.log_nonneg ((one_le_div hq0).2 h1.le)
    have hJ : ∀ i j, 0 ≤ sphJac q0 L (x i) (x j) := fun i j => by
      have : 0 ≤ Real.sin (Real.pi * x j) := Real.sin_nonneg_of_nonneg_of_le_pi (mul_nonneg Real.pi_pos.le (hx j).1.le)
        (mul_le_of_le_one_right Real.pi_pos.le (hx j).2.le)
      unfold sphJac
      positivity
    have hJJ := mul_nonneg (hJ 0 1) (hJ 3 4)
    unfold pairCube
    rw [← sub_mul, abs_mul, abs_of_nonneg hJJ]
    exact mul_le_mul_of_nonneg_right
      (half_diff h0 hM a b k (by rw [hkn]; exact hκ) (axis3_not_tiny (by linarith)) _ hp _ hq) hJJ
  have hd : |(∫ x in cubeN 5, pairCube q0 L (halfOf k q0 q1 (coded3 P a b k)) x) -
      ∫ x in cubeN 5, pairCube q0 L (halfOf k q0 q1 (integrand3 P a b k)) x| ≤ ∫ x in cubeN 5, pairCube q0 L (guardOf M k) x := by
    rw [← integral_sub ic ii]
    refine (abs_integral_le_integral_abs).trans ?_
    exact setIntegral_mono_on (ic.sub ii).abs ig (cubeN_measurable 5) hcube
  rw [← hL] at ei eg
  rw [eg, ei] at hd
  refine ⟨ic, ?_⟩
  have hn := guardOf_integral hq0 h1 hM0 k hk0
  unfold loop3 guardError
  rw [← mul_sub, abs_mul, abs_of_pos (by positivity)]
  rw [hkn] at hn
  exact mul_le_mul_of_nonneg_left (hd.trans hn) (by positivity)

/-- C74: the integrand that is sampled for the mode `‖k‖` is integrable over the unit cube, and its integral, with the normalisation of the
code, is the loop integral of the third-order term for any wavevector of that modulus, up to the effect of the guard in the coded kernel. -/
theorem C74_third (t : Pk ℝ) (phys : t.Physical) (two : 2 ≤ t.nk) (a b : Field) (k : E3) (hk : 4 * eps ≤ ‖k‖) (q0 q1 : ℝ) (h0 : 4 * eps ≤ q0)
    (h1 : q0 < q1) :
    ∃ (P : ℝ → ℝ) (K : (Fin 5 → ℝ) → ℝ), (∀ x, look t .poly x = .ok (P x)) ∧
      (∀ x, (∀ i, 0 ≤ x i ∧ x i ≤ 1) → kernelGamma3 t .poly a b ‖k‖ q0 q1 x = .ok (K x)) ∧ IntegrableOn K (cubeN 5) ∧
      IntegrableOn (fun z : E3 × E3 => integrand3 P a b k z.1 z.2) (region3 k q0 q1) ∧
      ∀ M, (∀ x, q0 ≤ x → x ≤ q1 → |P x| ≤ M) →
        |6 / (2 * Real.pi) ^ 6 * (∫ x in cubeN 5, K x) - loop3 P a b k q0 q1| ≤ guardError q0 q1 M ‖k‖ := by
  have he := eps_pos'
  have hq0 : 0 < q0 := by linarith
  obtain ⟨P, hP, tame⟩ := tame_look t phys two
  obtain ⟨B, hB⟩ := tame.bdd q0 q1 hq0
  refine ⟨P, _, hP, fun x hx => kernel_coded hP a b ‖k‖ q0 q1 hq0 h1.le x hx, (coded_integral tame.meas h0 h1 hB a b ‖k‖ hk).1, ?_, ?_⟩
  · have hsub : region3 k q0 q1 ⊆ shellSet q0 q1 ×ˢ shellSet q0 q1 := fun z hz => ⟨hz.1, hz.2.1⟩
    have hfin : volume (shellSet q0 q1 ×ˢ shellSet q0 q1 : Set (E3 × E3)) ≠ ⊤ := by
      rw [Measure.volume_eq_prod, Measure.prod_prod]
      exact ENNReal.mul_ne_top (shellSet_finite q0 q1).ne (shellSet_finite q0 q1).ne
    refine Measure.integrableOn_of_bounded (M := 64 * (q1 / q0) ^ 12 * B ^ 3) (measure_ne_top_of_subset hsub hfin)
      (integrand3_meas tame.meas a b k).aestronglyMeasurable ?_
    filter_upwards [ae_restrict_mem (region3_meas k q0 q1)] with z hz
    exact integrand3_bound hq0 hB a b k z hz
  · intro M hM
    have he3 : ‖k‖ = ‖axis3 ‖k‖‖ := (axis3_norm (norm_nonneg _)).symm
    let R : E3 ≃ₗᵢ[ℝ] E3 := (ℝ ∙ (k - axis3 ‖k‖))ᗮ.reflection
    have hR : R k = axis3 ‖k‖ := Submodule.reflection_sub he3
    have h := (coded_integral tame.meas h0 h1 hM a b ‖k‖ hk).2
    rw [show loop3 P a b (axis3 ‖k‖) q0 q1 = loop3 P a b k q0 q1 by rw [← hR, loop3_iso]] at h
    exact h

/-- C74: the effect of the guard is negligible over the default range. -/
theorem C74_guard_small (M κ : ℝ) (hM : 0 ≤ M) (h1 : 1 / 1000 ≤ κ) (h2 : κ ≤ 10) : guardError (1 / 2000) 10 M κ ≤ M ^ 3 / 10 ^ 22 := by
  have hp3 := Real.pi_gt_three
  have hp4 := Real.pi_lt_d2
  have hκ : 0 < κ := by linarith
  have e1 : κ ^ 6 / (3 * (1 / 2000 : ℝ) ^ 3) ≤ 10 ^ 6 / (3 * (1 / 2000 : ℝ) ^ 3) := by gcongr
  have e2 : (10 : ℝ) ^ 5 / (5 * κ ^ 2) ≤ 10 ^ 5 / (5 * (1 / 1000) ^ 2) := by gcongr
  have e3 : κ ^ 6 / (3 * (1 / 2000 : ℝ) ^ 3) + 10 ^ 5 / (5 * κ ^ 2) ≤ 2.67 * 10 ^ 15 := by
    norm_num at e1 e2 ⊢
    linarith
  unfold guardError
  have hpow : (0 : ℝ) < (2 * Real.pi) ^ 6 := by positivity
  calc _ ≤ 6 / (2 * Real.pi) ^ 6 * (4 * M ^ 3 * (3 * (4 / 3 * Real.pi * (2 * eps) ^ 3 * (2304 * (4 * Real.pi * (2.67 * 10 ^ 15)))))) := by
        have := eps_pos'
        gcongr
    _ = M ^ 3 * (6 * 4 * 3 * (4 / 3) * (2 * eps) ^ 3 * 2304 * 4 * (2.67 * 10 ^ 15) / 2 ^ 6) / Real.pi ^ 4 := by field_simp
    _ ≤ M ^ 3 * (6 * 4 * 3 * (4 / 3) * (2 * eps) ^ 3 * 2304 * 4 * (2.67 * 10 ^ 15) / 2 ^ 6) / 3 ^ 4 := by
        have := eps_pos'
        gcongr
    _ ≤ M ^ 3 / 10 ^ 22 := by
        have hM3 : 0 ≤ M ^ 3 := by positivity
        unfold eps
        norm_num
        linarith

/-- C74: the column `pk_gamma3_tree` of a run whose cubature gives the integral of the sampled integrand up to `η`. -/
theorem C74_column {cuba : Cuba ℝ} {e : Env} {a b : Field} {es : List Event} {μ ν : Mem} {cfg : Cfg ℝ} (hμ : Room 11 e.ks.length μ)
    (hes : Schedule 7 e.ks.length es) (h : runTerms2 cuba e a b es μ = .ok (cfg, ν)) {ik : ℕ} (phys : e.t.Physical) (two : 2 ≤ e.t.nk)
    (hpoly : (e.cfg.prec .gamma3_tree_q).interpol = .poly) {q0 q1 : ℝ} (hr : glqRange e.t (e.cfg.prec .gamma3_tree_q) = .ok (q0, q1))
    (h0 : 4 * eps ≤ q0) (h1 : q0 < q1) (k : E3) (hk : 4 * eps ≤ ‖k‖) (hik : e.ks[ik]? = some ‖k‖) (η : ℝ)
    (hη : ∀ (K : (Fin 5 → ℝ) → ℝ) I, (∀ x, (∀ i, 0 ≤ x i ∧ x i ≤ 1) → kernelGamma3 e.t .poly a b ‖k‖ q0 q1 x = .ok (K x)) →
      IntegrableOn K (cubeN 5) → cuba (kernelGamma3 e.t .poly a b ‖k‖ q0 q1) = .ok I → |I - ∫ x in cubeN 5, K x| ≤ η) :
    ∃ (P : ℝ → ℝ) (v : ℝ), (∀ x, look e.t .poly x = .ok (P x)) ∧ ν.at (cellOf cls2 "pk_gamma3_tree" ik) = some (some v) ∧
      ∀ M, (∀ x, q0 ≤ x → x ≤ q1 → |P x| ≤ M) →
        |v - loop3 P a b k q0 q1| ≤ 6 / (2 * Real.pi) ^ 6 * η + guardError q0 q1 M ‖k‖ := by
  obtain ⟨P, K, hP, hK, hi, -, hb⟩ := C74_third e.t phys two a b k hk q0 q1 h0 h1
  obtain ⟨hlt, hv⟩ := List.getElem?_eq_some_iff.1 hik
  obtain ⟨-, -, -, -, -, -, -, -, -, -, -, -, -, -, v, range, -, -, -, -, -, -, -, -, -, -, -, -, -, -, hg, hc, -, -, -, -, -, -, -, -, -, hcell, -⟩ :=
    C45_two_loop hμ hes h hlt
  rw [hr, Res.ok.injEq] at hg
  subst hg
  rw [hpoly, hv] at hc
  refine ⟨P, v, hP, hcell, fun M hM => ?_⟩
  have hc' := hc
  unfold calcGamma3 at hc'
  rw [Res.bind_eq_ok] at hc'
  obtain ⟨I, hI, -⟩ := hc'
  rw [C52_normalisation cuba e.t .poly a b q0 q1 ‖k‖ I hI, Res.ok.injEq] at hc
  have hJ := hη K I hK hi hI
  have hbM := hb M hM
  have hpos : 0 < 6 / (2 * Real.pi) ^ 6 := by positivity
  have e1 : v = 6 / (2 * Real.pi) ^ 6 * I := by
    rw [← hc]
    norm_num [Nat.factorial]
    ring
  rw [e1]
  calc |6 / (2 * Real.pi) ^ 6 * I - loop3 P a b k q0 q1|
      = |6 / (2 * Real.pi) ^ 6 * (I - ∫ x in cubeN 5, K x) + (6 / (2 * Real.pi) ^ 6 * (∫ x in cubeN 5, K x) - loop3 P a b k q0 q1)| := by ring_nf
    _ ≤ _ := (abs_add_le _ _).trans (add_le_add (by rw [abs_mul, abs_of_pos hpos]; exact mul_le_mul_of_nonneg_left hJ hpos.le) hbM)

/-! ## A concrete case -/

/-- A cubature that returns the integral. -/
noncomputable def exactCuba : Cuba ℝ := fun f => .ok (∫ x in cubeN 5, match f x with | .ok v => v | _ => 0)

theorem exactCuba_safe : CubaSafe exactCuba := fun _ _ => ⟨_, rfl⟩

/-- The example table, the range of the default settings, a wavevector which is not on the third axis. -/
example : ∃ (P : ℝ → ℝ) (K : (Fin 5 → ℝ) → ℝ),
    (∀ x, (∀ i, 0 ≤ x i ∧ x i ≤ 1) → kernelGamma3 exTable .poly .delta .theta 1 (1 / 2000) 10 x = .ok (K x)) ∧
    ∀ M, (∀ x, 1 / 2000 ≤ x → x ≤ 10 → |P x| ≤ M) →
      |6 / (2 * Real.pi) ^ 6 * (∫ x in cubeN 5, K x) - loop3 P .delta .theta (EuclideanSpace.single 0 1) (1 / 2000) 10| ≤ M ^ 3 / 10 ^ 22 := by
  have hn : ‖(EuclideanSpace.single 0 1 : E3)‖ = 1 := by simp
  obtain ⟨P, K, -, hK, -, -, hb⟩ := C74_third exTable exTable_physical (by norm_num [exTable]) .delta .theta (EuclideanSpace.single 0 1)
    (by rw [hn]; norm_num [eps]) (1 / 2000) 10 (by norm_num [eps]) (by norm_num)
  rw [hn] at hK hb
  exact ⟨P, K, hK, fun M hM => (hb M hM).trans (C74_guard_small M 1 ((abs_nonneg _).trans (hM 1 (by norm_num) (by norm_num))) (by norm_num) (by norm_num))⟩

/-- With default settings, for the mode 8 and an exact cubature, the column is the loop integral up to the effect of the guard. -/
example (rt : ℕ → ℕ → ℝ × ℝ) : ∃ (cfg : Cfg ℝ) (ν : Mem) (P : ℝ → ℝ) (v : ℝ),
    runTerms2 exactCuba (exEnv rt exKs) .delta .theta (blocks 7 0 0 [2, 0, 3]) exMem = .ok (cfg, ν) ∧ (∀ x, look exTable .poly x = .ok (P x)) ∧
    ν.at (cellOf cls2 "pk_gamma3_tree" 3) = some (some v) ∧
    ∀ M, (∀ x, 1 / 2000 ≤ x → x ≤ 10 → |P x| ≤ M) → |v - loop3 P .delta .theta (axis3 8) (1 / 2000) 10| ≤ M ^ 3 / 10 ^ 22 := by
  obtain ⟨⟨cfg, ν⟩, h⟩ := C59_two_loop (exEnv_ok rt exKs) exactCuba_safe .delta .theta (exSchedule 7) (exRoom 11)
  have hn : ‖axis3 8‖ = 8 := axis3_norm (by norm_num)
  obtain ⟨P, v, hP, hv, hb⟩ := C74_column (exRoom 11) (exSchedule 7) h (ik := 3) exTable_physical (by norm_num [exEnv, exTable])
    rfl (q0 := 1 / 2000) (q1 := 10) (by norm_num [exEnv, glqRange, Cfg.default, defaultPrec, lit_real, le_real]) (by norm_num [eps]) (by norm_num)
    (axis3 8) (by rw [hn]; norm_num [eps]) (by rw [hn]; simp [exEnv, exKs]) 0 (by
      intro K I hK _ hI
      unfold exactCuba at hI
      rw [Res.ok.injEq] at hI
      have : ∫ x in cubeN 5, K x = I := by
        rw [← hI]
        refine setIntegral_congr_fun (cubeN_measurable 5) fun x hx => ?_
        rw [mem_cubeN] at hx
        show K x = match kernelGamma3 _ _ _ _ _ _ _ x with | .ok v => v | _ => 0
        rw [hK x fun i => ⟨(hx i).1.le, (hx i).2.le⟩]
      rw [this, sub_self, abs_zero])
  refine ⟨cfg, ν, P, v, h, hP, hv, fun M hM => ?_⟩
  have hM0 : 0 ≤ M := (abs_nonneg _).trans (hM 1 (by norm_num) (by norm_num))
  have := hb M hM
  rw [mul_zero, zero_add, hn] at this
  exact this.trans (C74_guard_small M 8 hM0 (by norm_num) (by norm_num))

end Verif
