import Verif.Props.LoopB
import Verif.Props.AKernel

/-!
# The integrand of the A correction in units of the output wavenumber, and its integrability
-/

namespace Verif

open MeasureTheory

theorem gamma2Tree_homog (a : Field) (c k1 k2 k3 : ℝ) (hc : c ≠ 0) : gamma2Tree a (k1 / c) (k2 / c) (k3 / c) = gamma2Tree a k1 k2 k3 := by
  unfold gamma2Tree
  by_cases h1 : k1 = 0
  · subst h1
    cases a <;> simp [F2Fast]
    all_goals
      by_cases h2 : k2 = 0
      · subst h2; simp
      · field_simp
  · by_cases h2 : k2 = 0
    · subst h2
      cases a <;> simp [F2Fast] <;> field_simp
    · cases a <;> simp only [F2Fast] <;> field_simp

theorem gamma2Tree_pair (a : Field) (p s : E3) (hp : p ≠ 0) (hs : s ≠ 0) : sptSym2 a (toVec p) (toVec s) = gamma2Tree a ‖p‖ ‖s‖ ‖p + s‖ := by
  have h := gamma2Tree_vec a (p + s) p hp (by simpa using hs)
  rw [← toVec_sub, add_sub_cancel_left, C26_gamma2_tree] at h
  exact h.symm

theorem treeCross_len (a b c : Field) (k q : E3) (hk : k ≠ 0) (hq : q ≠ 0) (hr : k - q ≠ 0) (P1 P2 P3 : ℝ) :
    treeCross a b c q (k - q) (-k) P1 P2 P3 = treeBi a b c (‖q‖ / ‖k‖) (‖k - q‖ / ‖k‖) 1 P1 P2 P3 ∧
    treeCross a b c (k - q) q (-k) P1 P2 P3 = treeBi a b c (‖k - q‖ / ‖k‖) (‖q‖ / ‖k‖) 1 P1 P2 P3 := by
  have hκ := norm_ne_zero_iff.2 hk
  have hk' := neg_ne_zero.2 hk
  have e1 : (1 : ℝ) = ‖k‖ / ‖k‖ := (div_self hκ).symm
  unfold treeCross treeBi
  rw [e1]
  simp only [gamma2Tree_homog _ _ _ _ _ hκ, gamma2Tree_pair _ _ _ hq hr, gamma2Tree_pair _ _ _ hr hq, gamma2Tree_pair _ _ _ hq hk',
    gamma2Tree_pair _ _ _ hr hk', norm_neg]
  have n1 : ‖k - q + -k‖ = ‖q‖ := by rw [← norm_neg]; congr 1; abel
  have n2 : ‖q + -k‖ = ‖k - q‖ := by rw [← norm_neg]; congr 1; abel
  have n3 : ‖q + (k - q)‖ = ‖k‖ := by congr 1; abel
  have n4 : ‖k - q + q‖ = ‖k‖ := by congr 1; abel
  rw [n1, n2, n3, n4]
  exact ⟨rfl, rfl⟩

/-- The integrand in units of `k`. -/
theorem integrandA_los (n : E3) (hn : ‖n‖ = 1) (f : ℝ) (k q : E3) (hk : k ≠ 0) (hq : q ≠ 0) (hr : k - q ≠ 0) (Pk Pq Pr : ℝ) :
    f * inner ℝ n k * integrandA n f k q Pk Pq Pr =
      losA (cosOf k n) f ((‖q‖ / ‖k‖) ^ 2) ((‖k - q‖ / ‖k‖) ^ 2) (inner ℝ n q / ‖k‖) (cosOf k n - inner ℝ n q / ‖k‖)
        ((treeOut 1 (‖q‖ / ‖k‖) (‖k - q‖ / ‖k‖) Pk Pq Pr).a 0) ((treeOut 1 (‖q‖ / ‖k‖) (‖k - q‖ / ‖k‖) Pk Pq Pr).a 1)
        ((treeOut 1 (‖q‖ / ‖k‖) (‖k - q‖ / ‖k‖) Pk Pq Pr).a 2) ((treeOut 1 (‖q‖ / ‖k‖) (‖k - q‖ / ‖k‖) Pk Pq Pr).a 3)
      + losA (cosOf k n) f ((‖k - q‖ / ‖k‖) ^ 2) ((‖q‖ / ‖k‖) ^ 2) (cosOf k n - inner ℝ n q / ‖k‖) (inner ℝ n q / ‖k‖)
        ((treeOut 1 (‖q‖ / ‖k‖) (‖k - q‖ / ‖k‖) Pk Pq Pr).t 0) ((treeOut 1 (‖q‖ / ‖k‖) (‖k - q‖ / ‖k‖) Pk Pq Pr).t 1)
        ((treeOut 1 (‖q‖ / ‖k‖) (‖k - q‖ / ‖k‖) Pk Pq Pr).t 2) ((treeOut 1 (‖q‖ / ‖k‖) (‖k - q‖ / ‖k‖) Pk Pq Pr).t 3) := by
  have hκ := norm_ne_zero_iff.2 hk
  have hq' := norm_ne_zero_iff.2 hq
  have hr' := norm_ne_zero_iff.2 hr
  have hm : inner ℝ n k = ‖k‖ * cosOf k n := by
    rw [cosOf, hn, mul_one, real_inner_comm]
    field_simp
  unfold integrandA losCross losA losSq
  simp only [(treeCross_len _ _ _ k q hk hq hr _ _ _).1, (treeCross_len _ _ _ k q hk hq hr _ _ _).2]
  simp only [treeOut, Matrix.cons_val]
  rw [inner_sub_right, inner_neg_right, norm_neg, hm]
  field_simp

/-! ## Integrability -/

theorem theta_cos (k q : E3) (hk : k ≠ 0) (hq : q ≠ 0) : sptSym2 .theta (toVec q) (toVec (-k)) =
    3 / 7 - (1 + (‖q‖ / ‖k‖) ^ 2) / (2 * (‖q‖ / ‖k‖)) * cosOf k q + 4 / 7 * cosOf k q ^ 2 := by
  have h1 := norm_ne_zero_iff.2 hk
  have h2 := norm_ne_zero_iff.2 hq
  rw [← C17_F2_spt .theta _ _ (toVec_dot_ne hq) (toVec_dot_ne (neg_ne_zero.2 hk))]
  unfold F2Full F2Fast
  simp only [toVec_dot]
  rw [real_inner_self_eq_norm_sq, real_inner_self_eq_norm_sq, inner_neg_right, norm_neg, real_inner_comm]
  have : inner ℝ k q = cosOf k q * ‖k‖ * ‖q‖ := by unfold cosOf; field_simp
  rw [this]
  field_simp
  ring

theorem theta_small (k q : E3) (m : ℝ) (hm : 0 < m) (h1 : m ≤ ‖k‖ ^ 2) (h2 : m ≤ ‖q‖ ^ 2) :
    |sptSym2 .theta (toVec q) (toVec (-k))| ≤ ‖k - q‖ ^ 2 * (1 / m) := by
  have hk : -k ≠ 0 := by
    rw [neg_ne_zero]
    rintro rfl
    rw [norm_zero] at h1
    linarith [h1, zero_pow (M₀ := ℝ) two_ne_zero]
  have hq : q ≠ 0 := by
    rintro rfl
    rw [norm_zero] at h2
    linarith [h2, zero_pow (M₀ := ℝ) two_ne_zero]
  have h := F2_theta_bound m hm (toVec q) (toVec (-k)) (by rw [toVec_dot, real_inner_self_eq_norm_sq]; exact h2)
    (by rw [toVec_dot, real_inner_self_eq_norm_sq, norm_neg]; exact h1)
  rw [← toVec_add, toVec_dot (q + -k), real_inner_self_eq_norm_sq, show q + -k = -(k - q) by abel, norm_neg] at h
  rw [← C17_F2_spt .theta _ _ (toVec_dot_ne hq) (toVec_dot_ne hk)]
  exact h

theorem shell_compact (a b : ℝ) : IsCompact {q : E3 | a ≤ ‖q‖ ∧ ‖q‖ ≤ b} := by
  have c1 : Continuous fun q : E3 => ‖q‖ := by fun_prop
  exact Metric.isCompact_of_isClosed_isBounded ((isClosed_le continuous_const c1).inter (isClosed_le c1 continuous_const))
    (Metric.isBounded_closedBall.subset (t := Metric.closedBall 0 b) fun q hq => by simpa using hq.2)

/-- A function continuous on a shell times one that is bounded and continuous but for one point. -/
theorem shell_mul_bdd (k : E3) (a b : ℝ) {g C : E3 → ℝ} (hC : ContinuousOn C {q : E3 | a ≤ ‖q‖ ∧ ‖q‖ ≤ b})
    (hg : ContinuousOn g ({q : E3 | a ≤ ‖q‖ ∧ ‖q‖ ≤ b} \ {k})) (M : ℝ) (hb : ∀ q ∈ {q : E3 | a ≤ ‖q‖ ∧ ‖q‖ ≤ b}, |g q| ≤ M) :
    IntegrableOn (fun q => g q * C q) {q : E3 | a ≤ ‖q‖ ∧ ‖q‖ ≤ b} := by
  have hm := shell_measurable a b
  have hc := ContinuousOn.integrableOn_compact (μ := volume) (shell_compact a b) hC
  have hgm : AEStronglyMeasurable g (volume.restrict {q : E3 | a ≤ ‖q‖ ∧ ‖q‖ ≤ b}) := by
    have h := hg.aestronglyMeasurable (μ := volume) (hm.diff (measurableSet_singleton k))
    rwa [Measure.restrict_congr_set (sdiff_null_ae_eq_self (measure_singleton k))] at h
  refine Integrable.bdd_mul hc hgm (c := M) ?_
  filter_upwards [ae_restrict_mem hm] with q hq
  simpa using hb q hq

theorem losSq_le (n v : E3) (hn : ‖n‖ = 1) : |losSq n v| ≤ 1 := by
  unfold losSq
  rcases eq_or_ne v 0 with rfl | hv
  · simp
  · have := norm_pos_iff.2 hv
    rw [abs_of_nonneg (by positivity), div_le_one (by positivity)]
    have h := abs_real_inner_le_norm n v
    rw [hn, one_mul] at h
    rw [← sq_abs]
    exact pow_le_pow_left₀ (abs_nonneg _) h 2

theorem integrandA_kp (n : E3) (f : ℝ) (k q : E3) (Pk Pq : ℝ) : integrandA n f k q Pk Pq 0 =
    2 * Pk * (Pq * (inner ℝ n q / ‖q‖ ^ 2 * ((1 + f * losSq n (-k)) * sptSym2 .delta (toVec q) (toVec (-k)))))
    + losSq n (k - q) * (2 * Pk * (Pq * (inner ℝ n q / ‖q‖ ^ 2 * (f * (1 + f * losSq n (-k)) * sptSym2 .theta (toVec q) (toVec (-k))))))
    + inner ℝ n (k - q) / ‖k - q‖ ^ 2 * sptSym2 .theta (toVec q) (toVec (-k)) *
      (2 * Pk * (Pq * ((1 + f * losSq n q) * (1 + f * losSq n (-k))))) := by
  unfold integrandA losCross treeCross
  ring

theorem integrandA_affine (n : E3) (f : ℝ) (k q : E3) (Pk Pq Pr : ℝ) : integrandA n f k q Pk Pq Pr = integrandA n f k q Pk Pq 0 +
    Pr * (integrandA n f k q Pk Pq 1 - integrandA n f k q Pk Pq 0) := by
  unfold integrandA losCross treeCross
  ring

theorem losSq_continuousOn (n : E3) (u : E3 → E3) (S : Set E3) (hu : Continuous u) (h : ∀ q ∈ S, u q ≠ 0) :
    ContinuousOn (fun q => losSq n (u q)) S := by
  unfold losSq
  exact ContinuousOn.div (by fun_prop) (by fun_prop) fun q hq => pow_ne_zero 2 (norm_ne_zero_iff.2 (h q hq))

theorem integrandA_kp_integrable (n : E3) (hn : ‖n‖ = 1) (f : ℝ) (P : ℝ → ℝ) (k : E3) (hk : k ≠ 0) (q0 q1 Pk : ℝ) (h0 : 0 < q0)
    (hP : ContinuousOn P (Set.Icc q0 q1)) :
    IntegrableOn (fun q => integrandA n f k q Pk (P ‖q‖) 0) {q : E3 | q0 ≤ ‖q‖ ∧ ‖q‖ ≤ q1} := by
  have hκ := norm_pos_iff.2 hk
  have hne : ∀ q ∈ {q : E3 | q0 ≤ ‖q‖ ∧ ‖q‖ ≤ q1}, q ≠ 0 := fun q hq => norm_pos_iff.1 (h0.trans_le hq.1)
  have hne' : ∀ q ∈ {q : E3 | q0 ≤ ‖q‖ ∧ ‖q‖ ≤ q1} \ {k}, k - q ≠ 0 := fun q hq h => hq.2 (sub_eq_zero.1 h).symm
  have cP : ContinuousOn (fun q : E3 => P ‖q‖) {q : E3 | q0 ≤ ‖q‖ ∧ ‖q‖ ≤ q1} := hP.comp (by fun_prop) fun q hq => hq
  have cn : ContinuousOn (fun q : E3 => inner ℝ n q / ‖q‖ ^ 2) {q : E3 | q0 ≤ ‖q‖ ∧ ‖q‖ ≤ q1} :=
    ContinuousOn.div (by fun_prop) (by fun_prop) fun q hq => pow_ne_zero 2 (norm_ne_zero_iff.2 (hne q hq))
  have cG (a : Field) : ContinuousOn (fun q => sptSym2 a (toVec q) (toVec (-k))) {q : E3 | q0 ≤ ‖q‖ ∧ ‖q‖ ≤ q1} :=
    sptSym2_continuousOn a _ (fun q => q) (fun _ => -k) continuous_id continuous_const hne fun _ _ => neg_ne_zero.2 hk
  simp only [integrandA_kp]
  refine (Integrable.add (Integrable.add ?_ ?_) ?_)
  · exact ContinuousOn.integrableOn_compact (shell_compact q0 q1)
      (continuousOn_const.mul (cP.mul (cn.mul (continuousOn_const.mul (cG .delta)))))
  · refine shell_mul_bdd k q0 q1 (continuousOn_const.mul (cP.mul (cn.mul (continuousOn_const.mul (cG .theta))))) ?_ 1
      fun q _ => losSq_le n _ hn
    exact losSq_continuousOn n (fun q => k - q) _ (by fun_prop) hne'
  · refine shell_mul_bdd k q0 q1 (continuousOn_const.mul (cP.mul ((continuousOn_const.add (continuousOn_const.mul
      (losSq_continuousOn n (fun q => q) _ continuous_id hne))).mul continuousOn_const))) ?_ ((‖k‖ + q1) * (1 / min (‖k‖ ^ 2) (q0 ^ 2)))
      fun q hq => ?_
    · refine ContinuousOn.mul (ContinuousOn.div (by fun_prop) (by fun_prop) fun q hq => pow_ne_zero 2 (norm_ne_zero_iff.2 (hne' q hq)))
        ((cG .theta).mono Set.sdiff_subset)
    · have hm : 0 < min (‖k‖ ^ 2) (q0 ^ 2) := lt_min (by positivity) (by positivity)
      have ht := theta_small k q _ hm (min_le_left _ _) ((min_le_right _ _).trans (pow_le_pow_left₀ h0.le hq.1 2))
      have hi := abs_real_inner_le_norm n (k - q)
      rw [hn, one_mul] at hi
      rcases eq_or_ne (k - q) 0 with e | e
      · have hq1 : 0 < q1 := h0.trans_le (hq.1.trans hq.2)
        rw [e]
        simp
        positivity
      · have hr := norm_pos_iff.2 e
        have hq1 : 0 < q1 := h0.trans_le (hq.1.trans hq.2)
        rw [abs_mul, abs_div, abs_of_nonneg (a := ‖k - q‖ ^ 2) (by positivity)]
        calc |inner ℝ n (k - q)| / ‖k - q‖ ^ 2 * |sptSym2 .theta (toVec q) (toVec (-k))|
            ≤ ‖k - q‖ / ‖k - q‖ ^ 2 * (‖k - q‖ ^ 2 * (1 / min (‖k‖ ^ 2) (q0 ^ 2))) := by gcongr
          _ = ‖k - q‖ * (1 / min (‖k‖ ^ 2) (q0 ^ 2)) := by field_simp
          _ ≤ (‖k‖ + q1) * (1 / min (‖k‖ ^ 2) (q0 ^ 2)) := by
            gcongr
            exact (norm_sub_le _ _).trans (by linarith [hq.2])

theorem integrandA_one_continuousOn (n : E3) (f : ℝ) (P R : ℝ → ℝ) (k : E3) (hk : k ≠ 0) (q0 q1 Pk : ℝ) (h0 : 0 < q0)
    (hP : ContinuousOn P (Set.Icc q0 q1)) (hR : ContinuousOn R (Set.Icc q0 q1)) :
    ContinuousOn (fun q => integrandA n f k q Pk (P ‖q‖) (R ‖k - q‖)) (bothIn k q0 q1) := by
  have hne := fun q hq => (bothIn_ne (k := k) (q0 := q0) (q1 := q1) h0 q hq).1
  have hne' := fun q hq => (bothIn_ne (k := k) (q0 := q0) (q1 := q1) h0 q hq).2
  have c1 : ContinuousOn (fun q : E3 => P ‖q‖) (bothIn k q0 q1) := hP.comp (by fun_prop) fun q hq => hq.1
  have c2 : ContinuousOn (fun q : E3 => R ‖k - q‖) (bothIn k q0 q1) := hR.comp (by fun_prop) fun q hq => hq.2
  have g1 (a : Field) := sptSym2_continuousOn a (bothIn k q0 q1) (fun q => k - q) (fun _ => -k) (by fun_prop) continuous_const hne'
    fun _ _ => neg_ne_zero.2 hk
  have g2 (a : Field) := sptSym2_continuousOn a (bothIn k q0 q1) (fun q => q) (fun _ => -k) (by fun_prop) continuous_const hne
    fun _ _ => neg_ne_zero.2 hk
  have g3 (a : Field) := sptSym2_continuousOn a (bothIn k q0 q1) (fun q => q) (fun q => k - q) (by fun_prop) (by fun_prop) hne hne'
  have g4 (a : Field) := sptSym2_continuousOn a (bothIn k q0 q1) (fun q => k - q) (fun q => q) (by fun_prop) (by fun_prop) hne' hne
  have t1 (a b c : Field) : ContinuousOn (fun q => treeCross a b c q (k - q) (-k) (P ‖q‖) (R ‖k - q‖) Pk) (bothIn k q0 q1) :=
    continuousOn_const.mul (((((g1 a).mul c2).mul continuousOn_const).add (((g2 b).mul c1).mul continuousOn_const)).add (((g3 c).mul c1).mul c2))
  have t2 (a b c : Field) : ContinuousOn (fun q => treeCross a b c (k - q) q (-k) (R ‖k - q‖) (P ‖q‖) Pk) (bothIn k q0 q1) :=
    continuousOn_const.mul (((((g2 a).mul c1).mul continuousOn_const).add (((g1 b).mul c2).mul continuousOn_const)).add (((g4 c).mul c2).mul c1))
  have z1 := losSq_continuousOn n (fun q => q) _ (by fun_prop) hne
  have z2 := losSq_continuousOn n (fun q => k - q) _ (by fun_prop) hne'
  have z3 : ContinuousOn (fun _ : E3 => losSq n (-k)) (bothIn k q0 q1) := continuousOn_const
  have cf : ContinuousOn (fun _ : E3 => f) (bothIn k q0 q1) := continuousOn_const
  have l1 : ContinuousOn (fun q : E3 => inner ℝ n q / ‖q‖ ^ 2) (bothIn k q0 q1) :=
    ContinuousOn.div (by fun_prop) (by fun_prop) fun q hq => pow_ne_zero 2 (norm_ne_zero_iff.2 (hne q hq))
  have l2 : ContinuousOn (fun q : E3 => inner ℝ n (k - q) / ‖k - q‖ ^ 2) (bothIn k q0 q1) :=
    ContinuousOn.div (by fun_prop) (by fun_prop) fun q hq => pow_ne_zero 2 (norm_ne_zero_iff.2 (hne' q hq))
  unfold integrandA losCross
  refine (l1.mul ?_).add (l2.mul ?_)
  · exact (((t1 _ _ _).add ((cf.mul z2).mul (t1 _ _ _))).add ((cf.mul z3).mul (t1 _ _ _))).add (((cf.mul z2).mul (cf.mul z3)).mul (t1 _ _ _))
  · exact (((t2 _ _ _).add ((cf.mul z1).mul (t2 _ _ _))).add ((cf.mul z3).mul (t2 _ _ _))).add (((cf.mul z1).mul (cf.mul z3)).mul (t2 _ _ _))

/-! ## The part proportional to the spectra at `k` and `q` -/

/-- Coefficient of the second-order velocity kernel in `aCoef`, times the squared third side. -/
noncomputable def aLin (x mu : ℝ) : Fin 5 → ℝ :=
  ![2 * x ^ 2 - 2 * x ^ 3 * mu, x ^ 2 * mu ^ 2 - x ^ 2, 3 * x ^ 2 - 2 * x ^ 3 * mu + 2 * x * mu - 3 * x ^ 2 * mu ^ 2, x ^ 2 * mu ^ 2 - x ^ 2,
    x ^ 2 + 2 * x * mu - 3 * x ^ 2 * mu ^ 2]

/-- The remaining part of `aCoef`. -/
noncomputable def aPol (x mu : ℝ) : Fin 5 → ℝ :=
  let d := 2 * x * mu * (5 / 7 - (1 + x ^ 2) / (2 * x) * mu + 2 / 7 * mu ^ 2)
  ![d, 0, d, 0, 0]

theorem aCoef_split (x mu : ℝ) (hx : x ≠ 0) (hy : 0 < 1 + x ^ 2 - 2 * mu * x) (c : Fin 5) : aCoef x mu c =
    (3 / 7 - (1 + x ^ 2) / (2 * x) * mu + 4 / 7 * mu ^ 2) / (1 + x ^ 2 - 2 * mu * x) * aLin x mu c + aPol x mu c := by
  rw [aCoef_num x mu hx hy]
  have hY0 := hy.ne'
  unfold aNum aLin aPol
  generalize hY : 1 + x ^ 2 - 2 * mu * x = Y at *
  fin_cases c <;> simp <;> field_simp <;> (try rw [← hY]) <;> ring

theorem aCoef_integrable (P : ℝ → ℝ) (k : E3) (hk : k ≠ 0) (q0 q1 Pk : ℝ) (h0 : 0 < q0) (hP : ContinuousOn P (Set.Icc q0 q1)) (c : Fin 5) :
    IntegrableOn (fun q : E3 => aCoef (‖q‖ / ‖k‖) (cosOf k q) c / (‖q‖ / ‖k‖) ^ 2 * (Pk * P ‖q‖)) {q : E3 | q0 ≤ ‖q‖ ∧ ‖q‖ ≤ q1} := by
  have hκ := norm_pos_iff.2 hk
  have hne : ∀ q ∈ {q : E3 | q0 ≤ ‖q‖ ∧ ‖q‖ ≤ q1}, q ≠ 0 := fun q hq => norm_pos_iff.1 (h0.trans_le hq.1)
  have hne' : ∀ q ∈ {q : E3 | q0 ≤ ‖q‖ ∧ ‖q‖ ≤ q1} \ {k}, k - q ≠ 0 := fun q hq h => hq.2 (sub_eq_zero.1 h).symm
  have cP : ContinuousOn (fun q : E3 => P ‖q‖) {q : E3 | q0 ≤ ‖q‖ ∧ ‖q‖ ≤ q1} := hP.comp (by fun_prop) fun q hq => hq
  have cG : ContinuousOn (fun q => sptSym2 .theta (toVec q) (toVec (-k))) {q : E3 | q0 ≤ ‖q‖ ∧ ‖q‖ ≤ q1} :=
    sptSym2_continuousOn _ _ (fun q => q) (fun _ => -k) continuous_id continuous_const hne fun _ _ => neg_ne_zero.2 hk
  have cx : ContinuousOn (fun q : E3 => ‖q‖ / ‖k‖) {q : E3 | q0 ≤ ‖q‖ ∧ ‖q‖ ≤ q1} := by fun_prop
  have cm : ContinuousOn (fun q : E3 => cosOf k q) {q : E3 | q0 ≤ ‖q‖ ∧ ‖q‖ ≤ q1} := by
    unfold cosOf
    exact ContinuousOn.div (by fun_prop) (by fun_prop) fun q hq => mul_ne_zero hκ.ne' (norm_ne_zero_iff.2 (hne q hq))
  have hx0 : ∀ q ∈ {q : E3 | q0 ≤ ‖q‖ ∧ ‖q‖ ≤ q1}, ‖q‖ / ‖k‖ ≠ 0 := fun q hq => (div_pos (norm_pos_iff.2 (hne q hq)) hκ).ne'
  have cw : ContinuousOn (fun q : E3 => 1 / (‖q‖ / ‖k‖) ^ 2 * (Pk * P ‖q‖)) {q : E3 | q0 ≤ ‖q‖ ∧ ‖q‖ ≤ q1} :=
    (continuousOn_const.div (cx.pow 2) fun q hq => pow_ne_zero 2 (hx0 q hq)).mul (continuousOn_const.mul cP)
  have cl : ContinuousOn (fun q : E3 => aLin (‖q‖ / ‖k‖) (cosOf k q) c) {q : E3 | q0 ≤ ‖q‖ ∧ ‖q‖ ≤ q1} := by
    unfold aLin
    fin_cases c <;> simp <;> fun_prop
  have cd : ContinuousOn (fun q : E3 => (1 + (‖q‖ / ‖k‖) ^ 2) / (2 * (‖q‖ / ‖k‖))) {q : E3 | q0 ≤ ‖q‖ ∧ ‖q‖ ≤ q1} :=
    ContinuousOn.div (by fun_prop) (by fun_prop) fun q hq => mul_ne_zero two_ne_zero (hx0 q hq)
  have cp : ContinuousOn (fun q : E3 => aPol (‖q‖ / ‖k‖) (cosOf k q) c) {q : E3 | q0 ≤ ‖q‖ ∧ ‖q‖ ≤ q1} := by
    have : ContinuousOn (fun q : E3 => 2 * (‖q‖ / ‖k‖) * cosOf k q *
        (5 / 7 - (1 + (‖q‖ / ‖k‖) ^ 2) / (2 * (‖q‖ / ‖k‖)) * cosOf k q + 2 / 7 * cosOf k q ^ 2)) {q : E3 | q0 ≤ ‖q‖ ∧ ‖q‖ ≤ q1} :=
      ((continuousOn_const.mul cx).mul cm).mul ((continuousOn_const.sub (cd.mul cm)).add (continuousOn_const.mul (cm.pow 2)))
    unfold aPol
    fin_cases c
    · exact this
    · exact continuousOn_const
    · exact this
    · exact continuousOn_const
    · exact continuousOn_const
  have i1 := shell_mul_bdd k q0 q1 (g := fun q => sptSym2 .theta (toVec q) (toVec (-k)) / (‖k - q‖ / ‖k‖) ^ 2) (cl.mul cw)
    ((cG.mono Set.sdiff_subset).div (by fun_prop) fun q hq => pow_ne_zero 2 (div_ne_zero (norm_ne_zero_iff.2 (hne' q hq)) hκ.ne'))
    (‖k‖ ^ 2 * (1 / min (‖k‖ ^ 2) (q0 ^ 2))) fun q hq => by
      have hm : 0 < min (‖k‖ ^ 2) (q0 ^ 2) := lt_min (by positivity) (by positivity)
      have ht := theta_small k q _ hm (min_le_left _ _) ((min_le_right _ _).trans (pow_le_pow_left₀ h0.le hq.1 2))
      rcases eq_or_ne (k - q) 0 with e | e
      · rw [e]
        simp
        positivity
      · have hr := norm_pos_iff.2 e
        rw [abs_div, abs_of_nonneg (a := (‖k - q‖ / ‖k‖) ^ 2) (by positivity), div_le_iff₀ (by positivity)]
        refine ht.trans (le_of_eq ?_)
        field_simp
  have i2 := ContinuousOn.integrableOn_compact (μ := volume) (shell_compact q0 q1) (cp.mul cw)
  refine (i1.add i2).congr ?_
  have hmk : ∀ᵐ q : E3, q ≠ k := Measure.ae_ne _ k
  filter_upwards [ae_restrict_mem (shell_measurable q0 q1), ae_restrict_of_ae hmk] with q hq hqk
  have hlen := norm_sub_len k q hk (hne q hq)
  rw [← sq] at hlen
  have hr : 0 < ‖k - q‖ := norm_pos_iff.2 (sub_ne_zero.2 hqk.symm)
  rw [aCoef_split _ _ (hx0 q hq) (by rw [hlen]; positivity), ← theta_cos k q hk (hne q hq), hlen]
  simp only [Pi.add_apply, Pi.mul_apply]
  have := hx0 q hq
  field_simp

/-- The angular integral of the part proportional to the spectra at `k` and `q`. -/
noncomputable def aKer (c : Fin 5) (x : ℝ) : ℝ := ∫ mu in (-1 : ℝ)..1, aCoef x mu c

theorem aKer_closed (c : Fin 5) (x : ℝ) (hx : 0 < x) : aKer c x = aClosed x (Real.log |(x + 1) / (x - 1)|) c := by
  rcases eq_or_ne x 1 with rfl | h
  · rw [aKer, ← C53_equal, ka1_near 1 (by simp [eps]; norm_num)]
    simp
  · exact aCoef_integral x hx h c

theorem aKer_continuousOn (c : Fin 5) : ContinuousOn (aKer c) (Set.Ioi 0) := by
  -- a power of `x^2-1` times the logarithm
  have hl : ContinuousOn (fun x : ℝ => (x ^ 2 - 1) * Real.log |(x + 1) / (x - 1)|) (Set.Ioi 0) := by
    have e : Set.EqOn (fun x : ℝ => (x ^ 2 - 1) * Real.log |(x + 1) / (x - 1)|)
        (fun x => (x ^ 2 - 1) * Real.log (x + 1) - (x + 1) * ((x - 1) * Real.log (x - 1))) (Set.Ioi 0) := fun x hx => by
      have hx : 0 < x := hx
      dsimp only
      rcases eq_or_ne x 1 with rfl | h
      · simp
      · rw [Real.log_abs, Real.log_div (by linarith) (sub_ne_zero.2 h)]
        ring
    refine ContinuousOn.congr ?_ e
    have h1 : ContinuousOn (fun x : ℝ => Real.log (x + 1)) (Set.Ioi 0) :=
      ContinuousOn.log (by fun_prop) fun x hx => by have : 0 < x := hx; linarith
    have h2 : Continuous fun x : ℝ => (x - 1) * Real.log (x - 1) := Real.continuous_mul_log.comp (by fun_prop)
    exact (ContinuousOn.mul (by fun_prop) h1).sub (ContinuousOn.mul (by fun_prop) h2.continuousOn)
  refine ContinuousOn.congr ?_ fun x hx => aKer_closed c x hx
  set M : ℝ → ℝ := fun x => (x ^ 2 - 1) * Real.log |(x + 1) / (x - 1)| with hM
  have e3 : ∀ x : ℝ, (x ^ 2 - 1) ^ 3 * Real.log |(x + 1) / (x - 1)| = (x ^ 2 - 1) ^ 2 * M x := fun x => by rw [hM]; ring
  have e4 : ∀ x : ℝ, (x ^ 2 - 1) ^ 4 * Real.log |(x + 1) / (x - 1)| = (x ^ 2 - 1) ^ 3 * M x := fun x => by rw [hM]; ring
  have d1 : ContinuousOn (fun x : ℝ => 1 / x) (Set.Ioi 0) := ContinuousOn.div (by fun_prop) (by fun_prop) fun x hx => ne_of_gt hx
  have d3 : ContinuousOn (fun x : ℝ => 1 / x ^ 3) (Set.Ioi 0) := ContinuousOn.div (by fun_prop) (by fun_prop) fun x hx => pow_ne_zero 3 (ne_of_gt hx)
  have k1 : ContinuousOn (fun x : ℝ => 1 / 112 / x ^ 3 * (2 * x * (x ^ 2 + 1) * (3 - 14 * x ^ 2 + 3 * x ^ 4)
      - 3 * (x ^ 2 - 1) ^ 4 * Real.log |(x + 1) / (x - 1)|)) (Set.Ioi 0) := by
    have : ContinuousOn (fun x : ℝ => 1 / 112 * (1 / x ^ 3) * (2 * x * (x ^ 2 + 1) * (3 - 14 * x ^ 2 + 3 * x ^ 4) - 3 * ((x ^ 2 - 1) ^ 3 * M x)))
        (Set.Ioi 0) := by fun_prop
    refine this.congr fun x _ => ?_
    simp only [← e4]
    ring
  unfold aClosed
  fin_cases c
  · have : ContinuousOn (fun x : ℝ => -1 / 84 * (1 / x) * (2 * x * (19 - 24 * x ^ 2 + 9 * x ^ 4) - 9 * ((x ^ 2 - 1) ^ 2 * M x))) (Set.Ioi 0) := by fun_prop
    refine this.congr fun x _ => ?_
    simp [← e3]
    ring
  · exact k1
  · have : ContinuousOn (fun x : ℝ => 1 / 336 * (1 / x ^ 3) * (2 * x * (9 - 185 * x ^ 2 + 159 * x ^ 4 - 63 * x ^ 6)
        + 9 * ((x ^ 2 - 1) ^ 2 * M x) * (7 * x ^ 2 + 1))) (Set.Ioi 0) := by fun_prop
    refine this.congr fun x _ => ?_
    simp [← e3]
    ring
  · exact k1
  · have : ContinuousOn (fun x : ℝ => 1 / 336 * (1 / x ^ 3) * (2 * x * (9 - 109 * x ^ 2 + 63 * x ^ 4 - 27 * x ^ 6)
        + 9 * ((x ^ 2 - 1) ^ 2 * M x) * (3 * x ^ 2 + 1))) (Set.Ioi 0) := by fun_prop
    refine this.congr fun x _ => ?_
    simp [← e3]
    ring

/-- The kernel used by the code, all branches. -/
theorem ka1_error (x : ℝ) (hx : 0 < x) (c : Fin 5) : |ka1 (pw x) c - aKer c x| ≤ 1 / (6 * 10 ^ 22) := by
  unfold aKer
  rcases lt_or_ge x (1 / 10000) with h | h
  · refine (C54_small x hx h c).trans ?_
    have : x ^ 10 ≤ (1 / 10000) ^ 10 := pow_le_pow_left₀ hx.le h.le 10
    refine (div_le_div_of_nonneg_right this (by norm_num)).trans (by norm_num)
  · rcases lt_or_ge 100 x with h' | h'
    · refine (C54_large x h' c).trans ?_
      rw [one_div_le_one_div (by positivity) (by positivity)]
      have : (100 : ℝ) ^ 10 ≤ x ^ 10 := pow_le_pow_left₀ (by norm_num) h'.le 10
      nlinarith
    · by_cases he : eps < |x - 1|
      · rw [C53_angle x h h' he, sub_self, abs_zero]
        positivity
      · rcases eq_or_ne x 1 with rfl | h1
        · rw [C53_equal, sub_self, abs_zero]
          positivity
        · exact (C53_near x h1 (not_lt.1 he) c).trans (by norm_num)

/-- The radial integral. -/
theorem aCoef_shell (P : ℝ → ℝ) (k : E3) (hk : k ≠ 0) (q0 q1 Pk : ℝ) (h0 : 0 < q0) (h1 : q0 < q1) (hP : ContinuousOn P (Set.Icc q0 q1)) (c : Fin 5) :
    1 / (2 * Real.pi) ^ 3 * ∫ q in {q : E3 | q0 ≤ ‖q‖ ∧ ‖q‖ ≤ q1}, aCoef (‖q‖ / ‖k‖) (cosOf k q) c / (‖q‖ / ‖k‖) ^ 2 * (Pk * P ‖q‖) =
      ‖k‖ ^ 3 / (4 * Real.pi ^ 2) * intQ q0 q1 fun q => q / ‖k‖ * (aKer c (q / ‖k‖) * (Pk * P q)) := by
  have hκ := norm_pos_iff.2 hk
  have h := integral_axis_dir (fun r mu => aCoef (r / ‖k‖) mu c / (r / ‖k‖) ^ 2 * (Pk * P r)) k hk q0 q1 h0 h1
    (aCoef_integrable P k hk q0 q1 Pk h0 hP c)
  have e : ∀ r ∈ Set.uIcc q0 q1, r ^ 2 * (∫ mu in (-1 : ℝ)..1, aCoef (r / ‖k‖) mu c / (r / ‖k‖) ^ 2 * (Pk * P r)) =
      ‖k‖ ^ 2 * (aKer c (r / ‖k‖) * (Pk * P r)) := fun r hr => by
    rw [Set.uIcc_of_le h1.le] at hr
    have : 0 < r := h0.trans_le hr.1
    rw [intervalIntegral.integral_mul_const, intervalIntegral.integral_div]
    unfold aKer
    field_simp
  rw [intervalIntegral.integral_congr e, ← integral_exp _ q0 q1 h0 h1] at h
  unfold cosOf
  rw [h]
  unfold intQ
  rw [← intervalIntegral.integral_const_mul, ← intervalIntegral.integral_const_mul, ← intervalIntegral.integral_const_mul]
  refine intervalIntegral.integral_congr fun t _ => ?_
  have := Real.pi_pos
  dsimp only
  field_simp
  ring

/-! ## The columns -/

/-- Density of a column of the one-loop A correction. -/
noncomputable def densA1 (Pk : ℝ) (c : Fin 5) : ℝ → ℝ → ℝ → ℝ → ℝ := fun p r x mu =>
  (kA1 (pw x) (pw mu) c * Pk + ktA1 (pw x) (pw mu) c * p) * (r / (1 + x ^ 2 - 2 * mu * x) ^ 2) / x ^ 2

theorem densA1_continuousOn (Pk : ℝ) (c : Fin 5) :
    ContinuousOn (fun z : ℝ × ℝ × ℝ × ℝ => densA1 Pk c z.1 z.2.1 z.2.2.1 z.2.2.2) (goodPts ℝ) := by
  have hY : ∀ z ∈ goodPts ℝ, (1 + z.2.2.1 ^ 2 - 2 * z.2.2.2 * z.2.2.1) ^ 2 ≠ 0 := fun z hz => by
    have := hz.2
    rw [← sq] at this
    exact pow_ne_zero 2 this.ne'
  unfold densA1
  refine ContinuousOn.div (ContinuousOn.mul ?_ (ContinuousOn.div (by fun_prop) (by fun_prop) hY)) (by fun_prop) fun z hz => pow_ne_zero 2 hz.1.ne'
  refine Continuous.continuousOn ?_
  unfold kA1 ktA1 pw
  fin_cases c <;> simp <;> fun_prop

theorem azAvg_add {g h : ℝ → ℝ} (hg : Continuous g) (hh : Continuous h) : (azAvg fun p => g p + h p) = azAvg g + azAvg h := by
  unfold azAvg
  rw [intervalIntegral.integral_add (hg.intervalIntegrable _ _) (hh.intervalIntegrable _ _), add_div]

theorem losA_continuous (nu f p2 r2 dd td dt tt : ℝ) {u v : ℝ → ℝ} (hu : Continuous u) (hv : Continuous v) :
    Continuous fun p => losA nu f p2 r2 (u p) (v p) dd td dt tt := by
  unfold losA
  fun_prop

theorem losCos_continuous (nu mu : ℝ) : Continuous fun p => losCos nu mu p := by
  unfold losCos
  fun_prop

/-- The azimuthal average of the integrand for given spectra. -/
theorem avgA (x mu nu f Pk Pq Pr : ℝ) (hx : 0 < x) (hy : 0 < 1 + x ^ 2 - 2 * mu * x) (hm : mu ^ 2 ≤ 1) (hn : nu ^ 2 ≤ 1) (b : BiOut)
    (hb : b = treeOut 1 x (Real.sqrt (1 + x ^ 2 - 2 * mu * x)) Pk Pq Pr) :
    (azAvg fun p => losA nu f (x ^ 2) (1 + x ^ 2 - 2 * mu * x) (x * losCos nu mu p) (nu - x * losCos nu mu p) (b.a 0) (b.a 1) (b.a 2) (b.a 3)
        + losA nu f (1 + x ^ 2 - 2 * mu * x) (x ^ 2) (nu - x * losCos nu mu p) (x * losCos nu mu p) (b.t 0) (b.t 1) (b.t 2) (b.t 3)) =
      ∑ c, nu ^ (2 * (expA c).1) * f ^ (expA c).2 * (densA1 Pk c Pq Pr x mu + aCoef x mu c / x ^ 2 * (Pk * Pq)) := by
  have c1 := losCos_continuous nu mu
  rw [azAvg_add (losA_continuous _ _ _ _ _ _ _ _ (by fun_prop) (by fun_prop)) (losA_continuous _ _ _ _ _ _ _ _ (by fun_prop) (by fun_prop))]
  have h := C58_A x mu nu f b hx.ne' hy.ne' hm hn
  rw [← eq_div_iff (pow_ne_zero 3 hx.ne')] at h
  rw [h, Finset.sum_div]
  refine Finset.sum_congr rfl fun c _ => ?_
  have := C53_pointwise x mu Pk Pq Pr hx.ne' hy c
  rw [← hb, div_eq_iff hx.ne'] at this
  rw [this]
  unfold densA1
  field_simp

/-- The loop integral of the A correction as a plane integral and a radial integral. -/
theorem correctionA_columns (P : ℝ → ℝ) (k n : E3) (hk : k ≠ 0) (hn : ‖n‖ = 1) (f q0 q1 : ℝ) (h0 : 0 < q0) (h1 : q0 < q1)
    (hP : ContinuousOn P (Set.Icc q0 q1)) :
    correctionA n f P k (bothIn k q0 q1) + correctionAkp n f P k ({q : E3 | q0 ≤ ‖q‖ ∧ ‖q‖ ≤ q1} \ bothIn k q0 q1) =
      ∑ c, cosOf k n ^ (2 * (expA c).1) * f ^ (expA c).2 * (planeForm (intQ q0 q1) intMu false q0 q1 ‖k‖ (densA1 (P ‖k‖) c) P +
        ‖k‖ ^ 3 / (4 * Real.pi ^ 2) * intQ q0 q1 fun q => q / ‖k‖ * (aKer c (q / ‖k‖) * (P ‖k‖ * P q))) := by
  have hκ := norm_pos_iff.2 hk
  have hint (c : Fin 5) := dens_bothIn h0 hP (densA1_continuousOn (P ‖k‖) c) k hk
  have hcol (c : Fin 5) := C66_plane false (densA1 (P ‖k‖) c) P k hk q0 q1 h0 h1 _ (fun q _ => rfl) (hint c) (by simp)
  simp only [hcol, ← aCoef_shell P k hk q0 q1 (P ‖k‖) h0 h1 hP]
  set nu := cosOf k n with hnu
  have hmeas := (bothIn_closed k q0 q1).measurableSet
  have hshell := shell_measurable q0 q1
  classical
  let R : E3 → ℝ := fun q => if q ∈ bothIn k q0 q1 then P ‖k - q‖ else 0
  let F : E3 → ℝ := fun q => f * inner ℝ n k * integrandA n f k q (P ‖k‖) (P ‖q‖) (R q)
  let b : ℝ → ℝ → BiOut := fun r mu => treeOut 1 (r / ‖k‖) (Real.sqrt (1 + (r / ‖k‖) ^ 2 - 2 * mu * (r / ‖k‖))) (P ‖k‖) (P r)
    (if q0 ≤ ‖k‖ * Real.sqrt (1 + (r / ‖k‖) ^ 2 - 2 * mu * (r / ‖k‖)) ∧ ‖k‖ * Real.sqrt (1 + (r / ‖k‖) ^ 2 - 2 * mu * (r / ‖k‖)) ≤ q1
      then P (‖k‖ * Real.sqrt (1 + (r / ‖k‖) ^ 2 - 2 * mu * (r / ‖k‖))) else 0)
  let H : ℝ → ℝ → ℝ → ℝ := fun r mu l =>
    losA nu f ((r / ‖k‖) ^ 2) (1 + (r / ‖k‖) ^ 2 - 2 * mu * (r / ‖k‖)) (l / ‖k‖) (nu - l / ‖k‖) ((b r mu).a 0) ((b r mu).a 1) ((b r mu).a 2) ((b r mu).a 3)
    + losA nu f (1 + (r / ‖k‖) ^ 2 - 2 * mu * (r / ‖k‖)) ((r / ‖k‖) ^ 2) (nu - l / ‖k‖) (l / ‖k‖) ((b r mu).t 0) ((b r mu).t 1) ((b r mu).t 2) ((b r mu).t 3)
  have hne : ∀ q ∈ {q : E3 | q0 ≤ ‖q‖ ∧ ‖q‖ ≤ q1}, q ≠ 0 := fun q hq => norm_pos_iff.1 (h0.trans_le hq.1)
  have hlen : ∀ q ∈ {q : E3 | q0 ≤ ‖q‖ ∧ ‖q‖ ≤ q1}, 1 + (‖q‖ / ‖k‖) ^ 2 - 2 * cosOf k q * (‖q‖ / ‖k‖) = (‖k - q‖ / ‖k‖) ^ 2 := fun q hq => by
    rw [← norm_sub_len k q hk (hne q hq)]
    ring
  have hsq : ∀ q ∈ {q : E3 | q0 ≤ ‖q‖ ∧ ‖q‖ ≤ q1}, Real.sqrt (1 + (‖q‖ / ‖k‖) ^ 2 - 2 * cosOf k q * (‖q‖ / ‖k‖)) = ‖k - q‖ / ‖k‖ := fun q hq => by
    rw [hlen q hq, Real.sqrt_sq (by positivity)]
  have hmul : ∀ q : E3, ‖k‖ * (‖k - q‖ / ‖k‖) = ‖k - q‖ := fun q => by field_simp
  have hb : ∀ q ∈ {q : E3 | q0 ≤ ‖q‖ ∧ ‖q‖ ≤ q1}, b ‖q‖ (cosOf k q) = treeOut 1 (‖q‖ / ‖k‖) (‖k - q‖ / ‖k‖) (P ‖k‖) (P ‖q‖) (R q) := fun q hq => by
    simp only [b, hsq q hq, hmul, R]
    congr 1
    by_cases c : q0 ≤ ‖k - q‖ ∧ ‖k - q‖ ≤ q1
    · rw [if_pos c, if_pos (show q ∈ bothIn k q0 q1 from ⟨hq, c⟩)]
    · rw [if_neg c, if_neg fun h : q ∈ bothIn k q0 q1 => c h.2]
  have hmk : ∀ᵐ q : E3, q ≠ k := Measure.ae_ne _ k
  have hF : ∀ᵐ q : E3, q ∈ {q : E3 | q0 ≤ ‖q‖ ∧ ‖q‖ ≤ q1} → F q = H ‖q‖ (cosOf k q) (inner ℝ n q) := by
    filter_upwards [hmk] with q hqk hq
    simp only [F, H, hb q hq]
    rw [integrandA_los n hn f k q hk (hne q hq) (sub_ne_zero.2 hqk.symm), hlen q hq]
  -- integrability
  have hkp := integrandA_kp_integrable n hn f P k hk q0 q1 (P ‖k‖) h0 hP
  have hfull : IntegrableOn (fun q => integrandA n f k q (P ‖k‖) (P ‖q‖) (P ‖k - q‖)) (bothIn k q0 q1) :=
    ContinuousOn.integrableOn_compact (bothIn_compact k q0 q1) (integrandA_one_continuousOn n f P P k hk q0 q1 _ h0 hP hP)
  have hsub : bothIn k q0 q1 ⊆ {q : E3 | q0 ≤ ‖q‖ ∧ ‖q‖ ≤ q1} := fun q hq => hq.1
  have hinter : {q : E3 | q0 ≤ ‖q‖ ∧ ‖q‖ ≤ q1} ∩ bothIn k q0 q1 = bothIn k q0 q1 := Set.inter_eq_right.2 hsub
  have e1 : Set.EqOn F (fun q => f * inner ℝ n k * integrandA n f k q (P ‖k‖) (P ‖q‖) (P ‖k - q‖)) (bothIn k q0 q1) := fun q hq => by
    simp only [F, R, if_pos hq]
  have e2 : Set.EqOn F (fun q => f * inner ℝ n k * integrandA n f k q (P ‖k‖) (P ‖q‖) 0) ({q : E3 | q0 ≤ ‖q‖ ∧ ‖q‖ ≤ q1} \ bothIn k q0 q1) :=
    fun q hq => by simp only [F, R, if_neg hq.2]
  have i1 : IntegrableOn F (bothIn k q0 q1) := IntegrableOn.congr_fun (hfull.const_mul _) e1.symm hmeas
  have i2 : IntegrableOn F ({q : E3 | q0 ≤ ‖q‖ ∧ ‖q‖ ≤ q1} \ bothIn k q0 q1) :=
    IntegrableOn.congr_fun ((hkp.mono_set Set.sdiff_subset).const_mul _) e2.symm (hshell.diff hmeas)
  have iF : IntegrableOn F {q : E3 | q0 ≤ ‖q‖ ∧ ‖q‖ ≤ q1} := by
    have := i1.union i2
    rwa [Set.union_sdiff_cancel hsub] at this
  have iH : IntegrableOn (fun q : E3 => H ‖q‖ (cosOf k q) (inner ℝ n q)) {q : E3 | q0 ≤ ‖q‖ ∧ ‖q‖ ≤ q1} :=
    iF.congr ((ae_restrict_iff' hshell).2 hF)
  have split : ∫ q in {q : E3 | q0 ≤ ‖q‖ ∧ ‖q‖ ≤ q1}, F q =
      f * inner ℝ n k * (∫ q in bothIn k q0 q1, integrandA n f k q (P ‖k‖) (P ‖q‖) (P ‖k - q‖)) +
      f * inner ℝ n k * ∫ q in {q : E3 | q0 ≤ ‖q‖ ∧ ‖q‖ ≤ q1} \ bothIn k q0 q1, integrandA n f k q (P ‖k‖) (P ‖q‖) 0 := by
    rw [← integral_inter_add_sdiff hmeas iF, hinter, setIntegral_congr_fun hmeas e1, setIntegral_congr_fun (hshell.diff hmeas) e2,
      integral_const_mul, integral_const_mul]
  -- the average over the azimuth
  have havg : ∀ᵐ q : E3, q ∈ {q : E3 | q0 ≤ ‖q‖ ∧ ‖q‖ ≤ q1} → (azAvg fun phi => H ‖q‖ (cosOf k q) (‖q‖ * losCos nu (cosOf k q) phi)) =
      ∑ c, nu ^ (2 * (expA c).1) * f ^ (expA c).2 * ((bothIn k q0 q1).indicator (fun q => densA1 (P ‖k‖) c (P ‖q‖) (P ‖k - q‖) (‖q‖ / ‖k‖) (cosOf k q)) q
        + aCoef (‖q‖ / ‖k‖) (cosOf k q) c / (‖q‖ / ‖k‖) ^ 2 * (P ‖k‖ * P ‖q‖)) := by
    filter_upwards [hmk] with q hqk hq
    have hr : 0 < ‖k - q‖ := norm_pos_iff.2 (sub_ne_zero.2 hqk.symm)
    have hq0 := norm_pos_iff.2 (hne q hq)
    have key := avgA (‖q‖ / ‖k‖) (cosOf k q) nu f (P ‖k‖) (P ‖q‖) (R q) (by positivity) (by rw [hlen q hq]; positivity) (cosOf_sq_le k q)
      (cosOf_sq_le k n) (b ‖q‖ (cosOf k q)) (by rw [hb q hq, hsq q hq])
    have hdiv : ∀ phi, ‖q‖ * losCos nu (cosOf k q) phi / ‖k‖ = ‖q‖ / ‖k‖ * losCos nu (cosOf k q) phi := fun phi => by ring
    simp only [H, hdiv]
    rw [key]
    refine Finset.sum_congr rfl fun c _ => ?_
    congr 2
    by_cases cb : q ∈ bothIn k q0 q1
    · rw [Set.indicator_of_mem cb]
      simp only [R, if_pos cb]
    · rw [Set.indicator_of_notMem cb]
      simp only [R, if_neg cb, densA1]
      simp
  have ic (c : Fin 5) : Integrable (fun q => nu ^ (2 * (expA c).1) * f ^ (expA c).2 *
      ((bothIn k q0 q1).indicator (fun q => densA1 (P ‖k‖) c (P ‖q‖) (P ‖k - q‖) (‖q‖ / ‖k‖) (cosOf k q)) q
        + aCoef (‖q‖ / ‖k‖) (cosOf k q) c / (‖q‖ / ‖k‖) ^ 2 * (P ‖k‖ * P ‖q‖))) (volume.restrict {q : E3 | q0 ≤ ‖q‖ ∧ ‖q‖ ≤ q1}) :=
    (Integrable.add ((integrable_indicator_iff hmeas).2 (hint c)).integrableOn (aCoef_integrable P k hk q0 q1 (P ‖k‖) h0 hP c)).const_mul _
  have total : ∫ q in {q : E3 | q0 ≤ ‖q‖ ∧ ‖q‖ ≤ q1}, F q = ∑ c, nu ^ (2 * (expA c).1) * f ^ (expA c).2 *
      ((∫ q in bothIn k q0 q1, densA1 (P ‖k‖) c (P ‖q‖) (P ‖k - q‖) (‖q‖ / ‖k‖) (cosOf k q)) +
        ∫ q in {q : E3 | q0 ≤ ‖q‖ ∧ ‖q‖ ≤ q1}, aCoef (‖q‖ / ‖k‖) (cosOf k q) c / (‖q‖ / ‖k‖) ^ 2 * (P ‖k‖ * P ‖q‖)) := by
    rw [setIntegral_congr_ae hshell hF, integral_azimuth H k n hk hn q0 q1 h0 h1 iH, setIntegral_congr_ae hshell havg,
      integral_finsetSum _ fun c _ => ic c]
    refine Finset.sum_congr rfl fun c _ => ?_
    rw [integral_const_mul, integral_add ((integrable_indicator_iff hmeas).2 (hint c)).integrableOn
      (aCoef_integrable P k hk q0 q1 (P ‖k‖) h0 hP c), setIntegral_indicator hmeas, hinter]
  have fin : correctionA n f P k (bothIn k q0 q1) + correctionAkp n f P k ({q : E3 | q0 ≤ ‖q‖ ∧ ‖q‖ ≤ q1} \ bothIn k q0 q1) =
      1 / (2 * Real.pi) ^ 3 * ∫ q in {q : E3 | q0 ≤ ‖q‖ ∧ ‖q‖ ≤ q1}, F q := by
    rw [split]
    unfold correctionA correctionAkp
    ring
  rw [fin, total, Finset.mul_sum]
  exact Finset.sum_congr rfl fun c _ => by ring

end Verif
