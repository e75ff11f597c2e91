import Verif.Proofs.Gauss
import Mathlib.Topology.ContinuousMap.Weierstrass
import Mathlib.Analysis.Calculus.Taylor
import Mathlib.Analysis.SpecialFunctions.Trigonometric.ArctanDeriv

/-! Error and convergence of the Gauss–Legendre rule, for exact roots and for roots that are near enough, one function at a time and uniformly
over a compact family. -/

open Polynomial

namespace Verif

/-- What an exact root search returns for `n` nodes: stored derivatives exact, reference nodes ascending in `(-1,1)` and all of them
roots of the Legendre polynomial. -/
structure ExactRoots (n : ℕ) (rt : ℕ → ℝ × ℝ) : Prop where
  pp : ∀ i < (n + 1) / 2, (rt i).2 = (derivative (leg n)).eval (rt i).1
  asc : ∀ i j, i < j → j < n → nodeAt rt (-1) 1 n i < nodeAt rt (-1) 1 n j
  inside : ∀ i < n, -1 < nodeAt rt (-1) 1 n i ∧ nodeAt rt (-1) 1 n i < 1
  zero : ∀ i < n, (leg n).eval (nodeAt rt (-1) 1 n i) = 0

theorem exactRoots_exist (n : ℕ) : ∃ rt : ℕ → ℝ × ℝ, ExactRoots n rt := by
  obtain ⟨z, h1, h2⟩ := leg_roots n
  have hm := leg_roots_mirror n z h1 (fun i hi => (h2 i hi).2.2)
  refine ⟨fun i => (z i, (derivative (leg n)).eval (z i)), ?_⟩
  have hnode : ∀ i < n, nodeAt (fun i => (z i, (derivative (leg n)).eval (z i))) (-1) 1 n i = z (n - 1 - i) := by
    intro i hi
    unfold nodeAt
    simp only [lit_real]
    by_cases c : 2 * i + 1 < n
    · rw [if_pos c, hm i hi]; push_cast; ring
    · rw [if_neg c]; push_cast; ring
  refine ⟨fun i _ => rfl, fun i j hij hj => ?_, fun i hi => ?_, fun i hi => ?_⟩
  · rw [hnode i (by omega), hnode j hj]
    exact h1 _ _ (by omega) (by omega)
  · rw [hnode i hi]
    exact ⟨(h2 _ (by omega)).1, (h2 _ (by omega)).2.1⟩
  · rw [hnode i hi]
    exact (h2 _ (by omega)).2.2

/-- The rule of `n` nodes on `[a,b]` applied to `f`. -/
noncomputable def gsum (rt : ℕ → ℝ × ℝ) (n : ℕ) (a b : ℝ) (f : ℝ → ℝ) : ℝ :=
  ∑ i ∈ Finset.range n, weightAt rt a b n i * f (nodeAt rt a b n i)

namespace ExactRoots

variable {n : ℕ} {rt : ℕ → ℝ × ℝ} (h : ExactRoots n rt)
include h

theorem inj : Set.InjOn (nodeAt rt (-1) 1 n) (Finset.range n) := by
  intro i hi j hj hij
  simp only [Finset.coe_range, Set.mem_Iio] at hi hj
  by_contra hne
  rcases Nat.lt_or_gt_of_ne hne with c | c
  · exact (h.asc i j c hj).ne hij
  · exact (h.asc j i c hi).ne hij.symm

theorem exact (a b : ℝ) (f : ℝ[X]) (hf : f.degree < ((2 * n : ℕ) : WithBot ℕ)) :
    gsum rt n a b (fun t => f.eval t) = ∫ t in a..b, f.eval t :=
  rule_exact n rt h.pp h.inj h.zero a b f hf

theorem weight_nonneg {a b : ℝ} (hab : a ≤ b) (i : ℕ) (hi : i < n) : 0 ≤ weightAt rt a b n i := by
  rw [weightAt_ref rt n h.pp a b i hi]
  have h1 := (h.inside i hi).1
  have h2 := (h.inside i hi).2
  have h3 : 0 ≤ 1 - nodeAt rt (-1) 1 n i * nodeAt rt (-1) 1 n i := by nlinarith
  refine mul_nonneg (by linarith) (div_nonneg (by norm_num) ?_)
  rw [mul_assoc]
  exact mul_nonneg h3 (mul_self_nonneg _)

theorem node_mem {a b : ℝ} (hab : a ≤ b) (i : ℕ) (hi : i < n) : nodeAt rt a b n i ∈ Set.Icc a b := by
  rw [nodeAt_ref]
  have h1 := (h.inside i hi).1
  have h2 := (h.inside i hi).2
  constructor <;> nlinarith

theorem weight_sum (hn : 1 ≤ n) (a b : ℝ) : ∑ i ∈ Finset.range n, weightAt rt a b n i = b - a := by
  have := h.exact a b 1 (by rw [degree_one]; exact_mod_cast (by omega : 0 < 2 * n))
  unfold gsum at this
  simpa using this

/-- Bounded functions have bounded sums. -/
theorem gsum_le (hn : 1 ≤ n) {a b : ℝ} (hab : a ≤ b) (f : ℝ → ℝ) (d : ℝ) (hd : ∀ t ∈ Set.Icc a b, |f t| ≤ d) :
    |gsum rt n a b f| ≤ (b - a) * d := by
  rw [← h.weight_sum hn a b, Finset.sum_mul]
  unfold gsum
  refine (Finset.abs_sum_le_sum_abs _ _).trans (Finset.sum_le_sum fun i hi => ?_)
  have hi := Finset.mem_range.mp hi
  rw [abs_mul, abs_of_nonneg (h.weight_nonneg hab i hi)]
  exact mul_le_mul_of_nonneg_left (hd _ (h.node_mem hab i hi)) (h.weight_nonneg hab i hi)

omit h in
theorem gsum_sub (a b : ℝ) (f g : ℝ → ℝ) : gsum rt n a b (fun t => f t - g t) = gsum rt n a b f - gsum rt n a b g := by
  unfold gsum
  rw [← Finset.sum_sub_distrib]
  exact Finset.sum_congr rfl fun i _ => by ring

theorem error (hn : 1 ≤ n) {a b : ℝ} (hab : a ≤ b) (f : ℝ → ℝ) (hf : IntervalIntegrable f MeasureTheory.volume a b)
    (p : ℝ[X]) (hp : p.degree < ((2 * n : ℕ) : WithBot ℕ)) (d : ℝ) (hd : ∀ t ∈ Set.Icc a b, |f t - p.eval t| ≤ d) :
    |gsum rt n a b f - ∫ t in a..b, f t| ≤ 2 * (b - a) * d := by
  have h1 := h.gsum_le hn hab (fun t => f t - p.eval t) d hd
  rw [gsum_sub, h.exact a b p hp] at h1
  have hpi : IntervalIntegrable (fun t => p.eval t) MeasureTheory.volume a b := p.continuous.intervalIntegrable a b
  have h2 : |∫ t in a..b, (f t - p.eval t)| ≤ d * |b - a| := by
    rw [← Real.norm_eq_abs]
    exact intervalIntegral.norm_integral_le_of_norm_le_const fun t ht =>
      hd t (Set.Ioc_subset_Icc_self (by rwa [Set.uIoc_of_le hab] at ht))
  rw [intervalIntegral.integral_sub hf hpi, abs_of_nonneg (by linarith : 0 ≤ b - a)] at h2
  have := abs_sub_le (gsum rt n a b f) (∫ t in a..b, p.eval t) (∫ t in a..b, f t)
  rw [abs_sub_comm (∫ t in a..b, p.eval t)] at this
  linarith

end ExactRoots

/-- One function: the sums tend to the integral, uniformly over all exact root searches. -/
theorem gsum_tendsto_exact {a b : ℝ} (hab : a ≤ b) (f : ℝ → ℝ) (hf : ContinuousOn f (Set.Icc a b)) (e : ℝ) (he : 0 < e) :
    ∃ N, ∀ n, N ≤ n → ∀ rt, ExactRoots n rt → |gsum rt n a b f - ∫ t in a..b, f t| ≤ e := by
  obtain ⟨p, hp⟩ := exists_polynomial_near_of_continuousOn a b f hf (e / (2 * (b - a) + 1)) (by
    apply div_pos he; linarith)
  refine ⟨p.natDegree + 1, fun n hn rt h => ?_⟩
  refine (h.error (by omega) hab f (hf.intervalIntegrable_of_Icc hab) p ?_ (e / (2 * (b - a) + 1)) fun t ht => ?_).trans ?_
  · refine lt_of_le_of_lt degree_le_natDegree ?_
    exact_mod_cast (by omega : p.natDegree < 2 * n)
  · rw [abs_sub_comm]; exact (hp t ht).le
  · rw [mul_div_assoc', div_le_iff₀ (by linarith)]
    nlinarith

/-- Smooth functions: the Taylor polynomial at the lower end gives an explicit bound. -/
theorem gsum_smooth {n : ℕ} {rt : ℕ → ℝ × ℝ} (h : ExactRoots n rt) (hn : 1 ≤ n) {a b : ℝ} (hab : a ≤ b) (f : ℝ → ℝ)
    (hf : ContDiffOn ℝ (2 * n : ℕ) f (Set.Icc a b)) (M : ℝ)
    (hM : ∀ t ∈ Set.Icc a b, |iteratedDerivWithin (2 * n) f (Set.Icc a b) t| ≤ M) :
    |gsum rt n a b f - ∫ t in a..b, f t| ≤ 2 * (b - a) * (M * (b - a) ^ (2 * n) / (2 * n - 1).factorial) := by
  obtain ⟨m, hm⟩ : ∃ m, 2 * n = m + 1 := ⟨2 * n - 1, by omega⟩
  rw [hm] at hf hM ⊢
  rw [Nat.add_sub_cancel]
  set p : ℝ[X] := ∑ k ∈ Finset.range (m + 1), C ((k.factorial : ℝ)⁻¹ * iteratedDerivWithin k f (Set.Icc a b) a) * (X - C a) ^ k with hp
  have hpe : ∀ t, p.eval t = taylorWithinEval f m (Set.Icc a b) a t := by
    intro t
    rw [taylor_within_apply, hp, eval_finsetSum]
    refine Finset.sum_congr rfl fun k _ => ?_
    simp only [eval_mul, eval_C, eval_pow, eval_sub, eval_X, smul_eq_mul]
    ring
  refine h.error hn hab f (hf.continuousOn.intervalIntegrable_of_Icc hab) p ?_ _ fun t ht => ?_
  · rw [hp]
    refine lt_of_le_of_lt (degree_sum_le _ _) ?_
    rw [Finset.sup_lt_iff (WithBot.bot_lt_coe _)]
    intro k hk
    refine lt_of_le_of_lt ((degree_mul_le _ _).trans (add_le_of_nonpos_left degree_C_le)) ?_
    refine lt_of_le_of_lt (degree_pow_le _ _) ?_
    rw [degree_X_sub_C, nsmul_eq_mul, mul_one, hm]
    exact_mod_cast Finset.mem_range.mp hk
  · rw [hpe]
    have := taylor_mean_remainder_bound hab (by exact_mod_cast hf) ht hM
    refine this.trans ?_
    gcongr
    · exact (abs_nonneg _).trans (hM t ht)
    · linarith [ht.1]
    · exact ht.2

/-- A compact family of functions: if the sums are bounded and those of one function tend to its integral, then those of the family tend to
the integrals uniformly. -/
theorem gsum_uniform_of (R : ℕ → (ℕ → ℝ × ℝ) → Prop)
    (hT : ∀ f : ℝ → ℝ, ContinuousOn f (Set.Icc (-1) 1) → ∀ e : ℝ, 0 < e → ∃ N, ∀ n, N ≤ n → ∀ rt, R n rt →
      |gsum rt n (-1) 1 f - ∫ t in (-1 : ℝ)..1, f t| ≤ e)
    (hB : ∀ n rt, R n rt → 1 ≤ n → ∀ (f : ℝ → ℝ) (d : ℝ), (∀ t ∈ Set.Icc (-1 : ℝ) 1, |f t| ≤ d) → |gsum rt n (-1) 1 f| ≤ 4 * d)
    {T : Type*} [TopologicalSpace T] (K : Set T) (hK : IsCompact K) (G : T → ℝ → ℝ)
    (hG : ContinuousOn (fun p : T × ℝ => G p.1 p.2) (K ×ˢ Set.Icc (-1) 1)) (e : ℝ) (he : 0 < e) :
    ∃ N, ∀ n, N ≤ n → ∀ rt, R n rt → ∀ t ∈ K, |gsum rt n (-1) 1 (G t) - ∫ m in (-1 : ℝ)..1, G t m| ≤ e := by
  have hsec : ∀ t ∈ K, ContinuousOn (G t) (Set.Icc (-1) 1) := fun t ht =>
    hG.comp (by fun_prop : ContinuousOn (fun m : ℝ => (t, m)) (Set.Icc (-1) 1)) fun m hm => ⟨ht, hm⟩
  refine hK.induction_on
    (p := fun S => ∃ N, ∀ n, N ≤ n → ∀ rt, R n rt → ∀ t ∈ S, t ∈ K → |gsum rt n (-1) 1 (G t) - ∫ m in (-1 : ℝ)..1, G t m| ≤ e)
    ⟨0, by simp⟩ (fun S S' hS h => ?_) (fun S S' h h' => ?_) (fun t ht => ?_) |>.imp fun N h n hn rt hr t ht => h n hn rt hr t ht ht
  · exact h.imp fun N h n hn rt hr t ht => h n hn rt hr t (hS ht)
  · obtain ⟨N, h⟩ := h
    obtain ⟨N', h'⟩ := h'
    refine ⟨max N N', fun n hn rt hr t ht htK => ?_⟩
    rcases ht with ht | ht
    · exact h n (by omega) rt hr t ht htK
    · exact h' n (by omega) rt hr t ht htK
  · obtain ⟨N, hN⟩ := hT (G t) (hsec t ht) (e / 2) (by linarith)
    have hev : ∀ᶠ s in nhdsWithin t K, ∀ m ∈ Set.Icc (-1 : ℝ) 1, |G s m - G t m| ≤ e / 16 := by
      have hc := isCompact_Icc (a := (-1 : ℝ)) (b := 1)
      obtain ⟨v, hv, this⟩ := hc.mem_uniformity_of_prod (f := fun s m => G s m) (s := K) (q := t) hG ht (Metric.dist_mem_uniformity (by linarith : 0 < e / 16))
      filter_upwards [hv] with s hs m hm
      have := this s hs m hm
      rw [Set.mem_ofPred_eq, Real.dist_eq] at this
      exact this.le
    refine ⟨_, hev, max N 1, fun n hn rt hr s hs hsK => ?_⟩
    have h1 := hN n (by omega) rt hr
    have h2 := hB n rt hr (by omega) (fun m => G s m - G t m) (e / 16) hs
    rw [ExactRoots.gsum_sub] at h2
    have i1 := (hsec s hsK).intervalIntegrable_of_Icc (μ := MeasureTheory.volume) (by norm_num : (-1 : ℝ) ≤ 1)
    have i2 := (hsec t ht).intervalIntegrable_of_Icc (μ := MeasureTheory.volume) (by norm_num : (-1 : ℝ) ≤ 1)
    have h3 : |∫ m in (-1 : ℝ)..1, (G s m - G t m)| ≤ e / 16 * |1 - (-1)| := by
      rw [← Real.norm_eq_abs]
      exact intervalIntegral.norm_integral_le_of_norm_le_const fun m hm =>
        hs m (Set.Ioc_subset_Icc_self (by rwa [Set.uIoc_of_le (by norm_num : (-1 : ℝ) ≤ 1)] at hm))
    rw [intervalIntegral.integral_sub i1 i2] at h3
    norm_num at h3 h2
    rw [abs_le] at h1 h2 h3 ⊢
    constructor <;> linarith [h1.1, h1.2, h2.1, h2.2, h3.1, h3.2]

/-- Weights on any interval from those on `[-1,1]`. -/
theorem weightAt_scale (rt : ℕ → ℝ × ℝ) (n : ℕ) (a b : ℝ) (i : ℕ) : weightAt rt a b n i = (b - a) / 2 * weightAt rt (-1) 1 n i := by
  unfold weightAt
  simp only [lit_real]
  push_cast
  ring

theorem gsum_affine (rt : ℕ → ℝ × ℝ) (n : ℕ) (a b : ℝ) (f : ℝ → ℝ) :
    gsum rt n a b f = gsum rt n (-1) 1 fun m => (b - a) / 2 * f ((m + 1) * ((b - a) / 2) + a) := by
  unfold gsum
  refine Finset.sum_congr rfl fun i _ => ?_
  rw [weightAt_scale rt n a b, nodeAt_ref rt n a b i,
    show (b + a) / 2 + (b - a) / 2 * nodeAt rt (-1) 1 n i = (nodeAt rt (-1) 1 n i + 1) * ((b - a) / 2) + a by ring]
  ring

/-- No weight stays away from zero. -/
theorem weight_small (e : ℝ) (he : 0 < e) : ∃ N, ∀ n, N ≤ n → ∀ rt, ExactRoots n rt → ∀ i < n, weightAt rt (-1) 1 n i ≤ e := by
  set h := e / 8 with hh
  have h0 : 0 < h := by positivity
  have hG : Continuous fun p : ℝ × ℝ => 1 / (1 + ((p.2 - p.1) / h) ^ 2) :=
    continuous_const.div (by fun_prop) fun p => by positivity
  obtain ⟨N, hN⟩ := gsum_uniform_of ExactRoots (fun f hf e he => gsum_tendsto_exact (by norm_num) f hf e he)
    (fun n rt hr hn f d hd => by
      have := hr.gsum_le hn (by norm_num) f d hd
      have h0 : 0 ≤ d := (abs_nonneg _).trans (hd 0 (by norm_num))
      linarith)
    (Set.Icc (-1 : ℝ) 1) isCompact_Icc (fun t m => 1 / (1 + ((m - t) / h) ^ 2)) hG.continuousOn (e / 2) (by positivity)
  refine ⟨N, fun n hn rt hr i hi => ?_⟩
  have mem := hr.node_mem (a := -1) (b := 1) (by norm_num) i hi
  have key := hN n hn rt hr _ mem
  set t := nodeAt rt (-1) 1 n i with ht
  have low : weightAt rt (-1) 1 n i ≤ gsum rt n (-1) 1 fun m => 1 / (1 + ((m - t) / h) ^ 2) := by
    unfold gsum
    have := Finset.single_le_sum (f := fun j => weightAt rt (-1) 1 n j * (1 / (1 + ((nodeAt rt (-1) 1 n j - t) / h) ^ 2))) (s := Finset.range n)
      (fun j hj => mul_nonneg (hr.weight_nonneg (by norm_num) j (Finset.mem_range.1 hj)) (by positivity)) (Finset.mem_range.2 hi)
    refine le_trans (le_of_eq ?_) this
    rw [← ht]
    simp
  have int : ∫ m in (-1 : ℝ)..1, 1 / (1 + ((m - t) / h) ^ 2) = h * Real.arctan ((1 - t) / h) - h * Real.arctan ((-1 - t) / h) := by
    refine intervalIntegral.integral_eq_sub_of_hasDerivAt (f := fun m => h * Real.arctan ((m - t) / h)) (fun m _ => ?_)
      (Continuous.intervalIntegrable (continuous_const.div (by fun_prop) fun m => by positivity) _ _)
    have d1 : HasDerivAt (fun m : ℝ => (m - t) / h) (1 / h) m := ((hasDerivAt_id m).sub_const t).div_const h
    have d2 := d1.arctan.const_mul h
    rwa [show h * (1 / (1 + ((m - t) / h) ^ 2) * (1 / h)) = 1 / (1 + ((m - t) / h) ^ 2) by field_simp] at d2
  rw [int] at key
  have b1 := Real.arctan_lt_pi_div_two ((1 - t) / h)
  have b2 := Real.neg_pi_div_two_lt_arctan ((-1 - t) / h)
  have b3 := Real.pi_le_four
  have := (abs_le.1 key).2
  nlinarith

/-- Roots and derivatives near enough to exact ones: the nodes on `[-1,1]` ascend inside, each is within `1/(144 (n+1/2)²)` of an exact one,
and the relative error of its weight is at most `1/8` over the square of its distance from the nearer end, counted in nodes and plus `3/4`.
What the search of the code returns is of this kind (`C79_near`). -/
structure NearRoots (n : ℕ) (rt : ℕ → ℝ × ℝ) : Prop where
  asc : ∀ i j, i < j → j < n → nodeAt rt (-1) 1 n i < nodeAt rt (-1) 1 n j
  inside : ∀ i < n, -1 < nodeAt rt (-1) 1 n i ∧ nodeAt rt (-1) 1 n i < 1
  near : ∃ ex, ExactRoots n ex ∧ ∀ i < n, |nodeAt rt (-1) 1 n i - nodeAt ex (-1) 1 n i| ≤ 1 / (144 * (n + 1 / 2) ^ 2) ∧
    |weightAt rt (-1) 1 n i - weightAt ex (-1) 1 n i| ≤ weightAt ex (-1) 1 n i * (1 / (8 * ((min i (n - 1 - i) : ℕ) + 3 / 4) ^ 2))

theorem ExactRoots.near {n : ℕ} {rt : ℕ → ℝ × ℝ} (h : ExactRoots n rt) : NearRoots n rt where
  asc := h.asc
  inside := h.inside
  near := ⟨rt, h, fun i hi => by
    rw [sub_self, sub_self, abs_zero]
    exact ⟨by positivity, mul_nonneg (h.weight_nonneg (by norm_num) i hi) (by positivity)⟩⟩

/-- The relative errors are at most `2/9`. -/
theorem rel_le (m : ℕ) : 1 / (8 * ((m : ℝ) + 3 / 4) ^ 2) ≤ 2 / 9 := by
  rw [div_le_div_iff₀ (by positivity) (by norm_num)]
  nlinarith [(Nat.cast_nonneg m : (0 : ℝ) ≤ m)]

/-- The relative errors have a bounded sum. -/
theorem rel_sum (n : ℕ) : ∑ i ∈ Finset.range n, 1 / (8 * (((min i (n - 1 - i) : ℕ) : ℝ) + 3 / 4) ^ 2) ≤ 1 := by
  have h1 : ∀ n : ℕ, ∑ i ∈ Finset.range n, 1 / (8 * ((i : ℝ) + 3 / 4) ^ 2) ≤ 1 / 2 - 1 / (8 * ((n : ℝ) + 1 / 4)) := by
    intro n
    induction n with
    | zero => norm_num
    | succ n ih =>
      rw [Finset.sum_range_succ]
      have : 1 / (8 * ((n : ℝ) + 3 / 4) ^ 2) ≤ 1 / (8 * (n + 1 / 4)) - 1 / (8 * (((n + 1 : ℕ) : ℝ) + 1 / 4)) := by
        push_cast
        rw [div_sub_div _ _ (by positivity) (by positivity), div_le_div_iff₀ (by positivity) (by positivity)]
        nlinarith [(Nat.cast_nonneg n : (0 : ℝ) ≤ n)]
      linarith
  have h2 : ∀ n : ℕ, ∑ i ∈ Finset.range n, 1 / (8 * ((i : ℝ) + 3 / 4) ^ 2) ≤ 1 / 2 := fun n =>
    (h1 n).trans (by have : (0 : ℝ) ≤ 1 / (8 * (n + 1 / 4)) := by positivity
                     linarith)
  have h3 := Finset.sum_range_reflect (fun i : ℕ => 1 / (8 * ((i : ℝ) + 3 / 4) ^ 2)) n
  calc _ ≤ ∑ i ∈ Finset.range n, (1 / (8 * ((i : ℝ) + 3 / 4) ^ 2) + 1 / (8 * (((n - 1 - i : ℕ) : ℝ) + 3 / 4) ^ 2)) := by
        refine Finset.sum_le_sum fun i _ => ?_
        have p1 : 0 ≤ 1 / (8 * ((i : ℝ) + 3 / 4) ^ 2) := by positivity
        have p2 : 0 ≤ 1 / (8 * (((n - 1 - i : ℕ) : ℝ) + 3 / 4) ^ 2) := by positivity
        rcases min_choice i (n - 1 - i) with c | c <;> rw [c] <;> linarith
    _ ≤ 1 := by rw [Finset.sum_add_distrib, h3]; linarith [h2 n]

namespace NearRoots

variable {n : ℕ} {rt : ℕ → ℝ × ℝ} (h : NearRoots n rt)
include h

theorem weight_nonneg {a b : ℝ} (hab : a ≤ b) (i : ℕ) (hi : i < n) : 0 ≤ weightAt rt a b n i := by
  obtain ⟨ex, hex, hn⟩ := h.near
  have h1 := (abs_le.1 (hn i hi).2).1
  have h2 := hex.weight_nonneg (a := -1) (b := 1) (by norm_num) i hi
  have h3 := mul_le_mul_of_nonneg_left (rel_le (min i (n - 1 - i))) h2
  rw [weightAt_scale]
  exact mul_nonneg (by linarith) (by linarith)

theorem node_mem {a b : ℝ} (hab : a ≤ b) (i : ℕ) (hi : i < n) : nodeAt rt a b n i ∈ Set.Icc a b := by
  rw [nodeAt_ref]
  have h1 := (h.inside i hi).1
  have h2 := (h.inside i hi).2
  constructor <;> nlinarith

theorem weight_sum_le (hn : 1 ≤ n) {a b : ℝ} (hab : a ≤ b) : ∑ i ∈ Finset.range n, weightAt rt a b n i ≤ 11 / 9 * (b - a) := by
  obtain ⟨ex, hex, hnear⟩ := h.near
  have : ∀ i ∈ Finset.range n, weightAt rt a b n i ≤ 11 / 9 * weightAt ex a b n i := fun i hi => by
    have hi := Finset.mem_range.1 hi
    have h1 := (abs_le.1 (hnear i hi).2).2
    have h2 := hex.weight_nonneg (a := -1) (b := 1) (by norm_num) i hi
    have h3 := mul_le_mul_of_nonneg_left (rel_le (min i (n - 1 - i))) h2
    rw [weightAt_scale rt, weightAt_scale ex]
    nlinarith
  refine (Finset.sum_le_sum this).trans ?_
  rw [← Finset.mul_sum, hex.weight_sum hn]

/-- Functions close at the nodes have close sums. -/
theorem gsum_near (hn : 1 ≤ n) {a b : ℝ} (hab : a ≤ b) (f g : ℝ → ℝ) (d : ℝ)
    (hd : ∀ i < n, |f (nodeAt rt a b n i) - g (nodeAt rt a b n i)| ≤ d) : |gsum rt n a b f - gsum rt n a b g| ≤ 11 / 9 * (b - a) * d := by
  have hd0 : 0 ≤ d := (abs_nonneg _).trans (hd 0 (by omega))
  refine le_trans ?_ (mul_le_mul_of_nonneg_right (h.weight_sum_le hn hab) hd0)
  rw [← ExactRoots.gsum_sub, Finset.sum_mul]
  unfold gsum
  refine (Finset.abs_sum_le_sum_abs _ _).trans (Finset.sum_le_sum fun i hi => ?_)
  have hi := Finset.mem_range.mp hi
  rw [abs_mul, abs_of_nonneg (h.weight_nonneg hab i hi)]
  exact mul_le_mul_of_nonneg_left (hd i hi) (h.weight_nonneg hab i hi)

theorem gsum_le (hn : 1 ≤ n) {a b : ℝ} (hab : a ≤ b) (f : ℝ → ℝ) (d : ℝ) (hd : ∀ t ∈ Set.Icc a b, |f t| ≤ d) :
    |gsum rt n a b f| ≤ 11 / 9 * (b - a) * d := by
  have := h.gsum_near hn hab f (fun _ => 0) d fun i hi => by
    rw [sub_zero]
    exact hd _ (h.node_mem hab i hi)
  simpa [gsum] using this

theorem between {a b : ℝ} (hab : a ≤ b) {i : ℕ} (hi : i < n) :
    nodeAt rt a b n 0 ≤ nodeAt rt a b n i ∧ nodeAt rt a b n i ≤ nodeAt rt a b n (n - 1) := by
  have h1 : nodeAt rt (-1) 1 n 0 ≤ nodeAt rt (-1) 1 n i := by
    rcases Nat.eq_zero_or_pos i with c | c
    · rw [c]
    · exact (h.asc 0 i c hi).le
  have h2 : nodeAt rt (-1) 1 n i ≤ nodeAt rt (-1) 1 n (n - 1) := by
    rcases (by omega : i = n - 1 ∨ i < n - 1) with c | c
    · rw [c]
    · exact (h.asc i (n - 1) c (by omega)).le
  rw [nodeAt_ref rt n a b, nodeAt_ref rt n a b, nodeAt_ref rt n a b]
  constructor <;> nlinarith

end NearRoots

/-- One function on `[-1,1]`: the sums over near roots tend to the integral. -/
theorem gsum_tendsto_ref (f : ℝ → ℝ) (hf : ContinuousOn f (Set.Icc (-1) 1)) (e : ℝ) (he : 0 < e) :
    ∃ N, ∀ n, N ≤ n → ∀ rt, NearRoots n rt → |gsum rt n (-1) 1 f - ∫ t in (-1 : ℝ)..1, f t| ≤ e := by
  obtain ⟨M, hM⟩ := isCompact_Icc.exists_bound_of_continuousOn hf
  obtain ⟨d, hd, hu⟩ := Metric.uniformContinuousOn_iff.1 (isCompact_Icc.uniformContinuousOn_of_continuous hf) (e / 12) (by positivity)
  obtain ⟨N1, hN1⟩ := gsum_tendsto_exact (by norm_num) f hf (e / 3) (by positivity)
  have hM0 : 0 ≤ M := (norm_nonneg _).trans (hM 0 (by norm_num))
  obtain ⟨N2, hN2⟩ := weight_small (e / (3 * (M + 1))) (by positivity)
  obtain ⟨N3, hN3⟩ := exists_nat_gt (1 / d)
  refine ⟨max (max N1 N2) (max N3 1), fun n hn rt hr => ?_⟩
  obtain ⟨ex, hex, hnear⟩ := hr.near
  have h1 := hN1 n (by omega) ex hex
  have hwn := fun i (hi : i < n) => hex.weight_nonneg (a := -1) (b := 1) (by norm_num) i hi
  have hclose : 1 / (144 * ((n : ℝ) + 1 / 2) ^ 2) < d := by
    have a1 : (N3 : ℝ) ≤ n := by exact_mod_cast (by omega : N3 ≤ n)
    have a2 : (1 : ℝ) ≤ n := by exact_mod_cast (by omega : 1 ≤ n)
    rw [div_lt_iff₀ hd] at hN3
    rw [div_lt_iff₀ (by positivity)]
    nlinarith
  have h2 : |gsum rt n (-1) 1 f - gsum ex n (-1) 1 f| ≤ 2 * (e / 6) + M * (e / (3 * (M + 1))) := by
    have : ∀ i ∈ Finset.range n, |weightAt rt (-1) 1 n i * f (nodeAt rt (-1) 1 n i) - weightAt ex (-1) 1 n i * f (nodeAt ex (-1) 1 n i)| ≤
        weightAt ex (-1) 1 n i * (e / 6) + M * (e / (3 * (M + 1)) * (1 / (8 * ((min i (n - 1 - i) : ℕ) + 3 / 4 : ℝ) ^ 2))) := fun i hi => by
      have hi := Finset.mem_range.1 hi
      obtain ⟨g1, g2⟩ := hnear i hi
      have m1 := hr.node_mem (a := -1) (b := 1) (by norm_num) i hi
      have m2 := hex.node_mem (a := -1) (b := 1) (by norm_num) i hi
      have g3 := (hu _ m1 _ m2 (by rw [Real.dist_eq]; linarith)).le
      rw [Real.dist_eq] at g3
      have g4 := hM _ m1
      rw [Real.norm_eq_abs] at g4
      have g5 : weightAt ex (-1) 1 n i * (1 / (8 * ((min i (n - 1 - i) : ℕ) + 3 / 4 : ℝ) ^ 2)) ≤
          e / (3 * (M + 1)) * (1 / (8 * ((min i (n - 1 - i) : ℕ) + 3 / 4 : ℝ) ^ 2)) :=
        mul_le_mul_of_nonneg_right (hN2 n (by omega) ex hex i hi) (by positivity)
      rw [show weightAt rt (-1) 1 n i * f (nodeAt rt (-1) 1 n i) - weightAt ex (-1) 1 n i * f (nodeAt ex (-1) 1 n i) =
        weightAt ex (-1) 1 n i * (f (nodeAt rt (-1) 1 n i) - f (nodeAt ex (-1) 1 n i)) +
        f (nodeAt rt (-1) 1 n i) * (weightAt rt (-1) 1 n i - weightAt ex (-1) 1 n i) by ring]
      refine (abs_add_le _ _).trans (add_le_add ?_ ?_)
      · rw [abs_mul, abs_of_nonneg (hwn i hi)]
        exact mul_le_mul_of_nonneg_left (by linarith) (hwn i hi)
      · rw [abs_mul]
        exact mul_le_mul g4 (g2.trans g5) (abs_nonneg _) hM0
    unfold gsum
    rw [← Finset.sum_sub_distrib]
    refine ((Finset.abs_sum_le_sum_abs _ _).trans (Finset.sum_le_sum this)).trans ?_
    rw [Finset.sum_add_distrib, ← Finset.sum_mul, hex.weight_sum (by omega), ← Finset.mul_sum, ← Finset.mul_sum]
    have r := mul_le_mul_of_nonneg_left (rel_sum n) (show 0 ≤ M * (e / (3 * (M + 1))) by positivity)
    rw [mul_one, mul_assoc] at r
    linarith
  have h3 : M * (e / (3 * (M + 1))) ≤ e / 3 := by
    rw [mul_div_assoc', div_le_div_iff₀ (by positivity) (by norm_num)]
    nlinarith
  have := abs_sub_le (gsum rt n (-1) 1 f) (gsum ex n (-1) 1 f) (∫ t in (-1 : ℝ)..1, f t)
  linarith

/-- One function: the sums tend to the integral, uniformly over all near roots. -/
theorem gsum_tendsto {a b : ℝ} (hab : a ≤ b) (f : ℝ → ℝ) (hf : ContinuousOn f (Set.Icc a b)) (e : ℝ) (he : 0 < e) :
    ∃ N, ∀ n, N ≤ n → ∀ rt, NearRoots n rt → |gsum rt n a b f - ∫ t in a..b, f t| ≤ e := by
  obtain ⟨N, hN⟩ := gsum_tendsto_ref (fun m => (b - a) / 2 * f ((m + 1) * ((b - a) / 2) + a))
    (continuousOn_const.mul (hf.comp (by fun_prop) fun m hm => by constructor <;> nlinarith [hm.1, hm.2])) e he
  refine ⟨N, fun n hn rt hr => ?_⟩
  have h5 := intervalIntegral.mul_integral_comp_add_mul (a := (-1 : ℝ)) (b := 1) (f := f) ((b - a) / 2) ((b + a) / 2)
  rw [show (b + a) / 2 + (b - a) / 2 * -1 = a by ring, show (b + a) / 2 + (b - a) / 2 * 1 = b by ring] at h5
  have := hN n hn rt hr
  rw [← gsum_affine, intervalIntegral.integral_const_mul] at this
  rw [← h5, show (fun m : ℝ => f ((b + a) / 2 + (b - a) / 2 * m)) = fun m => f ((m + 1) * ((b - a) / 2) + a) from
    funext fun m => by congr 1; ring]
  exact this

/-- A compact family of functions: the sums tend to the integrals uniformly over the family. -/
theorem gsum_uniform {T : Type*} [TopologicalSpace T] (K : Set T) (hK : IsCompact K) (G : T → ℝ → ℝ)
    (hG : ContinuousOn (fun p : T × ℝ => G p.1 p.2) (K ×ˢ Set.Icc (-1) 1)) (e : ℝ) (he : 0 < e) :
    ∃ N, ∀ n, N ≤ n → ∀ rt, NearRoots n rt → ∀ t ∈ K, |gsum rt n (-1) 1 (G t) - ∫ m in (-1 : ℝ)..1, G t m| ≤ e :=
  gsum_uniform_of NearRoots gsum_tendsto_ref (fun n rt hr hn f d hd => by
    have := hr.gsum_le hn (by norm_num) f d hd
    have h0 : 0 ≤ d := (abs_nonneg _).trans (hd 0 (by norm_num))
    linarith) K hK G hG e he

/-- The extreme nodes approach the ends. -/
theorem ends_near_ref (e : ℝ) (he : 0 < e) :
    ∃ N, ∀ n, N ≤ n → ∀ rt, NearRoots n rt → nodeAt rt (-1) 1 n 0 ≤ -1 + e ∧ 1 - e ≤ nodeAt rt (-1) 1 n (n - 1) := by
  wlog h1 : e ≤ 1 generalizing e
  · obtain ⟨N, hN⟩ := this 1 one_pos le_rfl
    refine ⟨N, fun n hn rt hr => ?_⟩
    have := hN n hn rt hr
    push Not at h1
    constructor <;> linarith [this.1, this.2]
  have int : ∫ t in (-1 : ℝ)..1, max 0 (t - (1 - e)) = e ^ 2 / 2 := by
    have hc : Continuous fun t : ℝ => max 0 (t - (1 - e)) := by fun_prop
    rw [← intervalIntegral.integral_add_adjacent_intervals (b := 1 - e) (hc.intervalIntegrable _ _) (hc.intervalIntegrable _ _),
      intervalIntegral.integral_congr (g := fun _ => 0) (fun t ht => ?_),
      intervalIntegral.integral_congr (a := 1 - e) (g := fun t => t - (1 - e)) (fun t ht => ?_)]
    · rw [intervalIntegral.integral_sub (by simp) (by simp), integral_id]
      simp
      ring
    · rw [Set.uIcc_of_le (by linarith)] at ht
      exact max_eq_right (by linarith [ht.1])
    · rw [Set.uIcc_of_le (by linarith)] at ht
      exact max_eq_left (by linarith [ht.2])
  have int' : ∫ t in (-1 : ℝ)..1, max 0 (-t - (1 - e)) = e ^ 2 / 2 := by
    have := intervalIntegral.integral_comp_neg (a := -1) (b := 1) fun t : ℝ => max 0 (t - (1 - e))
    rw [this, neg_neg, int]
  obtain ⟨N, hN⟩ := gsum_tendsto (by norm_num : (-1 : ℝ) ≤ 1) (fun t => max 0 (t - (1 - e))) (by fun_prop) (e ^ 2 / 4) (by positivity)
  obtain ⟨N', hN'⟩ := gsum_tendsto (by norm_num : (-1 : ℝ) ≤ 1) (fun t => max 0 (-t - (1 - e))) (by fun_prop) (e ^ 2 / 4) (by positivity)
  refine ⟨max (max N N') 1, fun n hn rt hr => ?_⟩
  have b := hN n (by omega) rt hr
  have b' := hN' n (by omega) rt hr
  rw [int] at b
  rw [int'] at b'
  have he2 : 0 < e ^ 2 := by positivity
  constructor <;> by_contra hlt <;> push Not at hlt
  · have : gsum rt n (-1) 1 (fun t => max 0 (-t - (1 - e))) = 0 := Finset.sum_eq_zero fun i hi => by
      have hi := Finset.mem_range.mp hi
      have : nodeAt rt (-1) 1 n 0 ≤ nodeAt rt (-1) 1 n i := by
        rcases Nat.eq_zero_or_pos i with c | c
        · rw [c]
        · exact (hr.asc 0 i c hi).le
      beta_reduce
      rw [max_eq_left (by linarith), mul_zero]
    rw [this, zero_sub, abs_neg, abs_of_pos (by positivity)] at b'
    linarith
  · have : gsum rt n (-1) 1 (fun t => max 0 (t - (1 - e))) = 0 := Finset.sum_eq_zero fun i hi => by
      have hi := Finset.mem_range.mp hi
      have : nodeAt rt (-1) 1 n i ≤ nodeAt rt (-1) 1 n (n - 1) := by
        rcases (by omega : i = n - 1 ∨ i < n - 1) with c | c
        · rw [c]
        · exact (hr.asc i (n - 1) c (by omega)).le
      beta_reduce
      rw [max_eq_left (by linarith), mul_zero]
    rw [this, zero_sub, abs_neg, abs_of_pos (by positivity)] at b
    linarith

theorem ends_near (a b e : ℝ) (he : 0 < e) :
    ∃ N, ∀ n, N ≤ n → ∀ rt, NearRoots n rt → |nodeAt rt a b n 0 - a| ≤ e ∧ |nodeAt rt a b n (n - 1) - b| ≤ e := by
  obtain ⟨N, hN⟩ := ends_near_ref (e / (|b - a| + 1)) (by positivity)
  refine ⟨max N 1, fun n hn rt hr => ?_⟩
  obtain ⟨h1, h2⟩ := hN n (by omega) rt hr
  have h3 := (hr.inside 0 (by omega)).1
  have h4 := (hr.inside (n - 1) (by omega)).2
  have hle : |b - a| * (e / (|b - a| + 1)) ≤ e := by
    rw [mul_div_assoc', div_le_iff₀ (by positivity)]
    nlinarith [abs_nonneg (b - a)]
  constructor
  · rw [nodeAt_ref, show (b + a) / 2 + (b - a) / 2 * nodeAt rt (-1) 1 n 0 - a = (b - a) * ((nodeAt rt (-1) 1 n 0 + 1) / 2) by ring, abs_mul]
    refine le_trans ?_ hle
    gcongr
    rw [abs_of_nonneg (by linarith)]
    linarith
  · rw [nodeAt_ref, show (b + a) / 2 + (b - a) / 2 * nodeAt rt (-1) 1 n (n - 1) - b = (b - a) * ((nodeAt rt (-1) 1 n (n - 1) - 1) / 2) by ring, abs_mul]
    refine le_trans ?_ hle
    gcongr
    rw [abs_of_nonpos (by linarith)]
    linarith

end Verif
