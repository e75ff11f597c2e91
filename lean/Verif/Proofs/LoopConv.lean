import Verif.Props.LoopBispectrum

/-!
# Convergence of the standard loop integrals

The third-order kernel stays bounded where the sum of two of its arguments vanishes, so that the loop integrals converge for every
measurable spectrum that is bounded on compact ranges, whatever the triangle.
-/

namespace Verif

open MeasureTheory

/-- Measurable, and bounded on every compact range of positive wavenumbers. -/
structure Tame (P : ℝ → ℝ) : Prop where
  meas : Measurable P
  bdd : ∀ a b, 0 < a → ∃ B, ∀ x, a ≤ x → x ≤ b → |P x| ≤ B

theorem Tame.of_continuous {P : ℝ → ℝ} (h : Continuous P) : Tame P where
  meas := h.measurable
  bdd a b _ := by
    obtain ⟨B, hB⟩ := (isCompact_Icc (a := a) (b := b)).exists_bound_of_continuousOn h.continuousOn
    exact ⟨B, fun x h1 h2 => hB x ⟨h1, h2⟩⟩

theorem vec_cauchy (p q : Vec) : p.dot q ^ 2 ≤ p.dot p * q.dot q := by
  unfold Vec.dot
  nlinarith [sq_nonneg (p.x * q.y - p.y * q.x), sq_nonneg (p.x * q.z - p.z * q.x), sq_nonneg (p.y * q.z - p.z * q.y)]

/-- The second-order velocity kernel vanishes with the square of the total momentum. -/
theorem F2_theta_bound (m : ℝ) (hm : 0 < m) (q r : Vec) (hq : m ≤ q.dot q) (hr : m ≤ r.dot r) :
    |F2Fast .theta (q.dot q) (r.dot r) (q.dot r)| ≤ (q + r).dot (q + r) * (1 / m) := by
  have hs : (q + r).dot (q + r) = q.dot q + r.dot r + 2 * q.dot r := by simp only [Vec.dot, Vec.add_x, Vec.add_y, Vec.add_z]; ring
  have hs0 : 0 ≤ (q + r).dot (q + r) := by simp only [Vec.dot]; nlinarith [sq_nonneg (q + r).x, sq_nonneg (q + r).y, sq_nonneg (q + r).z]
  have hc := vec_cauchy q r
  have hc' := vec_cauchy q (q + r)
  have hd : q.dot (q + r) = q.dot q + q.dot r := by simp only [Vec.dot, Vec.add_x, Vec.add_y, Vec.add_z]; ring
  generalize (q + r).dot (q + r) = s at *
  generalize q.dot q = a at *
  generalize r.dot r = b at *
  generalize q.dot r = c at *
  have ha : 0 < a := hm.trans_le hq
  have hb : 0 < b := hm.trans_le hr
  have e : F2Fast .theta a b c = (3 / 7 * (a * b - c ^ 2) + c * s / 2) / (a * b) := by
    simp only [F2Fast]
    rw [hs]
    field_simp
    ring
  rw [hd] at hc'
  have h1 : a * b - c ^ 2 ≤ a * s := by rw [hs]; nlinarith
  have h2 : |c| * m ≤ a * b := by
    apply abs_le_of_sq_le_sq' _ (by positivity) |>.2
    rw [mul_pow, sq_abs]
    have : m ^ 2 ≤ a * b := by nlinarith
    calc c ^ 2 * m ^ 2 ≤ (a * b) * (a * b) := mul_le_mul hc this (by positivity) (by positivity)
      _ = (a * b) ^ 2 := by ring
  rw [e, abs_div, abs_of_pos (mul_pos ha hb), div_le_iff₀ (mul_pos ha hb)]
  have h3 : |3 / 7 * (a * b - c ^ 2) + c * s / 2| ≤ 3 / 7 * (a * s) + |c| * s / 2 := by
    refine (abs_add_le _ _).trans (add_le_add ?_ ?_)
    · rw [abs_of_nonneg (by nlinarith)]
      nlinarith
    · rw [abs_div, abs_mul, abs_of_nonneg hs0, abs_two]
  refine h3.trans ?_
  have h4 : |c| ≤ a * b / m := by rw [le_div_iff₀ hm]; exact h2
  have h5 : a ≤ a * b / m := by rw [le_div_iff₀ hm]; nlinarith
  have : s * (1 / m) * (a * b) = s * (a * b / m) := by ring
  rw [this]
  nlinarith [mul_le_mul_of_nonneg_right h4 hs0, mul_le_mul_of_nonneg_right h5 hs0]

/-- The third-order kernel is bounded for arguments of lengths between two positive bounds. -/
theorem F3_bounded (a : Field) (m M : ℝ) (hm : 0 < m) : ∃ C, ∀ p q r : Vec, m ≤ p.dot p → p.dot p ≤ M → m ≤ q.dot q → q.dot q ≤ M →
    m ≤ r.dot r → r.dot r ≤ M → |F3 a p q r| ≤ C := by
  let n := match a with
    | .delta => 1
    | .theta => 2
  refine ⟨2 * ((|sigmaab 3 n 1| * (3 * M) + |sigmaab 3 n 2| * (9 * M ^ 2 / m)) * (1 / m)
    + |sigmaab 3 n 1| * (1 / 2 + M / m) * (5 / 7 + M * (1 / m) + 2 / 7 * M ^ 2 / m ^ 2)), fun p q r p1 p2 q1 q2 r1 r2 => ?_⟩
  have hM : 0 < M := hm.trans_le (p1.trans p2)
  by_cases ht : tiny (q + r) ∨ tiny (p + (q + r))
  · have e : F3 a p q r = 0 := if_pos ht
    rw [e, abs_zero]
    positivity
  have e : F3 a p q r = 2 * ((sigmaab 3 n 1 * ((1 + p.dot (q + r) / (q + r).dot (q + r)) / 2)
      + sigmaab 3 n 2 * (p.dot (q + r) * (p.dot p + (q + r).dot (q + r) + 2 * p.dot (q + r)) / (p.dot p * (q + r).dot (q + r)) / 2))
        * F2Fast .theta (q.dot q) (r.dot r) (q.dot r)
    + sigmaab 3 n 1 * ((1 + p.dot (q + r) / p.dot p) / 2) * F2Fast .delta (q.dot q) (r.dot r) (q.dot r)) := if_neg ht
  rw [e]
  clear e
  have hF := F2_theta_bound m hm q r q1 r1
  have hqr : q.dot r ^ 2 ≤ q.dot q * r.dot r := vec_cauchy q r
  have hc : p.dot (q + r) ^ 2 ≤ p.dot p * (q + r).dot (q + r) := vec_cauchy p (q + r)
  have hs : (q + r).dot (q + r) = q.dot q + r.dot r + 2 * q.dot r := by simp only [Vec.dot, Vec.add_x, Vec.add_y, Vec.add_z]; ring
  have hs0 : 0 ≤ (q + r).dot (q + r) := by simp only [Vec.dot]; nlinarith [sq_nonneg (q + r).x, sq_nonneg (q + r).y, sq_nonneg (q + r).z]
  have hqr1 : |q.dot r| ≤ M := by
    refine abs_le_of_sq_le_sq ?_ hM.le
    nlinarith
  have hs1 : (q + r).dot (q + r) ≤ 4 * M := by
    have := le_abs_self (q.dot r)
    linarith
  have hc1 : |p.dot (q + r)| ≤ 2 * M := by
    refine abs_le_of_sq_le_sq ?_ (by linarith)
    nlinarith
  generalize (q + r).dot (q + r) = s at *
  generalize p.dot (q + r) = c at *
  generalize hft : F2Fast .theta (q.dot q) (r.dot r) (q.dot r) = ft at *
  have hfd : |F2Fast .delta (q.dot q) (r.dot r) (q.dot r)| ≤ 5 / 7 + M * (1 / m) + 2 / 7 * M ^ 2 / m ^ 2 := by
    have hq0 := hm.trans_le q1
    have hr0 := hm.trans_le r1
    simp only [F2Fast]
    have a1 : |1 / 2 * q.dot r * (1 / q.dot q + 1 / r.dot r)| ≤ M * (1 / m) := by
      rw [abs_mul, abs_mul, abs_of_pos (by positivity : (0 : ℝ) < 1 / 2), abs_of_pos (by positivity : 0 < 1 / q.dot q + 1 / r.dot r)]
      have b1 : 1 / q.dot q ≤ 1 / m := one_div_le_one_div_of_le hm q1
      have b2 : 1 / r.dot r ≤ 1 / m := one_div_le_one_div_of_le hm r1
      calc 1 / 2 * |q.dot r| * (1 / q.dot q + 1 / r.dot r) ≤ 1 / 2 * M * (1 / m + 1 / m) :=
            mul_le_mul (by linarith) (by linarith) (by positivity) (by positivity)
        _ = M * (1 / m) := by ring
    have a2 : |2 / 7 * q.dot r * q.dot r / q.dot q / r.dot r| ≤ 2 / 7 * M ^ 2 / m ^ 2 := by
      rw [abs_div, abs_div, abs_mul, abs_mul, abs_of_pos hq0, abs_of_pos hr0, abs_of_pos (by positivity : (0 : ℝ) < 2 / 7), div_div]
      refine div_le_div₀ (by positivity) ?_ (by positivity) ?_
      · have := abs_nonneg (q.dot r)
        nlinarith
      · nlinarith
    calc _ ≤ |5 / 7 + 1 / 2 * q.dot r * (1 / q.dot q + 1 / r.dot r)| + _ := abs_add_le _ _
      _ ≤ |(5 / 7 : ℝ)| + |1 / 2 * q.dot r * (1 / q.dot q + 1 / r.dot r)| + _ := add_le_add_left (abs_add_le _ _) _
      _ ≤ _ := by
        rw [abs_of_pos (by positivity : (0 : ℝ) < 5 / 7)]
        linarith
  generalize F2Fast .delta (q.dot q) (r.dot r) (q.dot r) = fd at *
  generalize p.dot p = pp at *
  have hp0 : 0 < pp := hm.trans_le p1
  have hfs : s ≠ 0 → |ft / s| ≤ 1 / m := fun h => by
    have hs' : 0 < s := lt_of_le_of_ne hs0 (Ne.symm h)
    rw [abs_div, abs_of_pos hs', div_le_iff₀ hs', _root_.mul_comm]
    exact hF
  have g1 : |(1 + c / s) / 2 * ft| ≤ 3 * M * (1 / m) := by
    by_cases h : s = 0
    · have : ft = 0 := by rw [h, zero_mul] at hF; exact abs_nonpos_iff.1 hF
      rw [this, mul_zero, abs_zero]
      positivity
    · have : (1 + c / s) / 2 * ft = (s + c) / 2 * (ft / s) := by field_simp
      rw [this, abs_mul]
      refine mul_le_mul ?_ (hfs h) (abs_nonneg _) (by positivity)
      rw [abs_div, abs_two, div_le_iff₀ two_pos]
      refine (abs_add_le _ _).trans ?_
      rw [abs_of_nonneg hs0]
      linarith
  have g2 : |c * (pp + s + 2 * c) / (pp * s) / 2 * ft| ≤ 9 * M ^ 2 / m * (1 / m) := by
    by_cases h : s = 0
    · rw [h, mul_zero, div_zero, zero_div, zero_mul, abs_zero]
      positivity
    · have : c * (pp + s + 2 * c) / (pp * s) / 2 * ft = c * (pp + s + 2 * c) / 2 / pp * (ft / s) := by field_simp
      rw [this, abs_mul]
      refine mul_le_mul ?_ (hfs h) (abs_nonneg _) (by positivity)
      rw [abs_div, abs_div, abs_mul, abs_of_pos hp0, abs_two]
      refine div_le_div₀ (by positivity) ?_ hm p1
      have : |pp + s + 2 * c| ≤ 9 * M := by
        refine (abs_add_le _ _).trans ?_
        rw [abs_of_nonneg (by linarith : 0 ≤ pp + s), abs_mul, abs_two]
        linarith
      have := mul_le_mul hc1 this (abs_nonneg _) (by positivity)
      nlinarith
  have g3 : |(1 + c / pp) / 2| ≤ 1 / 2 + M / m := by
    rw [abs_div, abs_two, div_le_iff₀ two_pos]
    refine (abs_add_le _ _).trans ?_
    rw [abs_one, abs_div, abs_of_pos hp0]
    have : |c| / pp ≤ 2 * M / m := div_le_div₀ (by positivity) hc1 hm p1
    have e : (1 / 2 + M / m) * 2 = 1 + 2 * M / m := by ring
    rw [e]
    linarith
  rw [abs_mul, abs_two]
  refine mul_le_mul_of_nonneg_left ?_ two_pos.le
  have h1 : (sigmaab 3 n 1 * ((1 + c / s) / 2) + sigmaab 3 n 2 * (c * (pp + s + 2 * c) / (pp * s) / 2)) * ft =
      sigmaab 3 n 1 * ((1 + c / s) / 2 * ft) + sigmaab 3 n 2 * (c * (pp + s + 2 * c) / (pp * s) / 2 * ft) := by ring
  have h2 : (|sigmaab 3 n 1| * (3 * M) + |sigmaab 3 n 2| * (9 * M ^ 2 / m)) * (1 / m) =
      |sigmaab 3 n 1| * (3 * M * (1 / m)) + |sigmaab 3 n 2| * (9 * M ^ 2 / m * (1 / m)) := by ring
  rw [h1, h2]
  refine (abs_add_le _ _).trans (add_le_add ((abs_add_le _ _).trans (add_le_add ?_ ?_)) ?_)
  · rw [abs_mul]
    exact mul_le_mul_of_nonneg_left g1 (abs_nonneg _)
  · rw [abs_mul]
    exact mul_le_mul_of_nonneg_left g2 (abs_nonneg _)
  · rw [abs_mul, abs_mul]
    exact mul_le_mul (mul_le_mul_of_nonneg_left g3 (abs_nonneg _)) hfd (abs_nonneg _) (by positivity)

theorem toVec_dot_cont (f g : E3 → E3) (hf : Continuous f) (hg : Continuous g) :
    Continuous fun q => (toVec (f q)).dot (toVec (g q)) := by
  unfold Vec.dot toVec
  fun_prop

theorem tiny_meas (f : E3 → E3) (hf : Continuous f) : MeasurableSet {q | tiny (toVec (f q))} := by
  have h : ∀ g : E3 → ℝ, Continuous g → MeasurableSet {q | |g q| < (eps : ℝ)} := fun g hg =>
    (isOpen_lt (hg.abs) continuous_const).measurableSet
  exact (h _ (by fun_prop)).inter ((h _ (by fun_prop)).inter (h _ (by fun_prop)))

theorem F3_measurable (a : Field) (f g h : E3 → E3) (hf : Continuous f) (hg : Continuous g) (hh : Continuous h) :
    Measurable fun q => F3 a (toVec (f q)) (toVec (g q)) (toVec (h q)) := by
  unfold F3
  simp only [← toVec_add]
  refine Measurable.ite ((tiny_meas _ (by fun_prop)).union (tiny_meas _ (by fun_prop))) measurable_const ?_
  have d1 := (toVec_dot_cont f f hf hf).measurable
  have d2 := (toVec_dot_cont g g hg hg).measurable
  have d3 := (toVec_dot_cont h h hh hh).measurable
  have d4 := (toVec_dot_cont (fun q => g q + h q) (fun q => g q + h q) (by fun_prop) (by fun_prop)).measurable
  have d5 := (toVec_dot_cont f (fun q => g q + h q) hf (by fun_prop)).measurable
  have d6 := (toVec_dot_cont g h hg hh).measurable
  unfold F2Fast
  fun_prop

/-- A bounded measurable function times one continuous on a compact set is integrable there. -/
theorem integrableOn_bdd_mul (K : Set E3) (hK : IsCompact K) (f g : E3 → ℝ) (hf : Measurable f) (B : ℝ) (hB : ∀ q ∈ K, |f q| ≤ B)
    (hg : ContinuousOn g K) : IntegrableOn (fun q => g q * f q) K := by
  refine IntegrableOn.continuousOn_mul hg ?_ hK
  refine Measure.integrableOn_of_bounded (M := B) hK.measure_lt_top.ne hf.aestronglyMeasurable ?_
  exact (ae_restrict_iff' hK.measurableSet).2 (Filter.Eventually.of_forall fun q hq => hB q hq)

theorem Tame.along {P : ℝ → ℝ} (hP : Tame P) (K : Set E3) (hK : IsCompact K) (f : E3 → E3) (hf : Continuous f) (a : ℝ) (ha : 0 < a)
    (h : ∀ q ∈ K, a ≤ ‖f q‖) : Measurable (fun q => P ‖f q‖) ∧ ∃ B, ∀ q ∈ K, |P ‖f q‖| ≤ B := by
  obtain ⟨R, hR⟩ := hK.exists_bound_of_continuousOn hf.continuousOn
  obtain ⟨B, hB⟩ := hP.bdd a R ha
  exact ⟨hP.meas.comp hf.norm.measurable, B, fun q hq => hB _ (h q hq) (hR q hq)⟩

/-- The standard 222 integral converges. -/
theorem spec222_conv (P : ℝ → ℝ) (hP : Tame P) (a b c : Field) (k1 k2 : E3) (qmin qmax : ℝ) (h0 : 0 < qmin) :
    IntegrableOn (fun q => spec222 P a b c (toVec k1) (toVec k2) (toVec q))
      {q : E3 | min ‖q‖ (min ‖k1 - q‖ ‖k2 + q‖) ∈ qRange qmin qmax} := by
  have hK := compact_three k1 k2 qmin qmax
  set K := {q : E3 | min ‖q‖ (min ‖k1 - q‖ ‖k2 + q‖) ∈ qRange qmin qmax}
  have l0 : ∀ q ∈ K, qmin ≤ ‖q‖ := fun q hq => (le_min_iff.1 hq.1).1
  have l1 : ∀ q ∈ K, qmin ≤ ‖k1 - q‖ := fun q hq => (le_min_iff.1 (le_min_iff.1 hq.1).2).1
  have l2 : ∀ q ∈ K, qmin ≤ ‖k2 + q‖ := fun q hq => (le_min_iff.1 (le_min_iff.1 hq.1).2).2
  have hne : ∀ v : E3, qmin ≤ ‖v‖ → v ≠ 0 := fun v h e => by rw [e, norm_zero] at h; linarith
  have c1 := sptSym2_continuousOn a K (fun q => q) (fun q => k1 - q) (by fun_prop) (by fun_prop) (fun q hq => hne _ (l0 q hq))
    (fun q hq => hne _ (l1 q hq))
  have c2 := sptSym2_continuousOn b K (fun q => -q) (fun q => k2 + q) (by fun_prop) (by fun_prop)
    (fun q hq => neg_ne_zero.2 (hne _ (l0 q hq))) (fun q hq => hne _ (l2 q hq))
  have c3 := sptSym2_continuousOn c K (fun q => k1 - q) (fun q => k2 + q) (by fun_prop) (by fun_prop) (fun q hq => hne _ (l1 q hq))
    (fun q hq => hne _ (l2 q hq))
  obtain ⟨m0, B0, b0⟩ := hP.along K hK (fun q => q) (by fun_prop) qmin h0 l0
  obtain ⟨m1, B1, b1⟩ := hP.along K hK (fun q => k1 - q) (by fun_prop) qmin h0 l1
  obtain ⟨m2, B2, b2⟩ := hP.along K hK (fun q => k2 + q) (by fun_prop) qmin h0 l2
  have := integrableOn_bdd_mul K hK (fun q => P ‖q‖ * P ‖k1 - q‖ * P ‖k2 + q‖)
    (fun q => 8 * sptSym2 a (toVec q) (toVec (k1 - q)) * sptSym2 b (toVec (-q)) (toVec (k2 + q))
      * sptSym2 c (toVec (k1 - q)) (toVec (k2 + q)) / (2 * Real.pi) ^ 3) ((m0.mul m1).mul m2) (B0 * B1 * B2)
    (fun q hq => by
      rw [abs_mul, abs_mul]
      have n0 := (abs_nonneg _).trans (b0 q hq)
      have n1 := (abs_nonneg _).trans (b1 q hq)
      exact mul_le_mul (mul_le_mul (b0 q hq) (b1 q hq) (abs_nonneg _) n0) (b2 q hq) (abs_nonneg _) (mul_nonneg n0 n1))
    ((((continuousOn_const.mul c1).mul c2).mul c3).div_const _)
  refine this.congr_fun (fun q _ => ?_) hK.measurableSet
  unfold spec222
  simp only [← toVec_sub, ← toVec_add, ← toVec_neg, toVec_modulus]
  ring

/-- The standard 321 integral converges for every triangle. -/
theorem spec321_conv (P : ℝ → ℝ) (hP : Tame P) (a b : Field) (k2 k3 : E3) (h3 : k3 ≠ 0) (qmin qmax : ℝ) (h0 : 0 < qmin) :
    IntegrableOn (fun q => spec321 P a b (toVec k2) (toVec k3) (toVec q)) {q : E3 | min ‖q‖ ‖k2 - q‖ ∈ qRange qmin qmax} := by
  have hS : {q : E3 | min ‖q‖ ‖k2 - q‖ ∈ qRange qmin qmax} = {q : E3 | min ‖q‖ (min ‖k2 - q‖ ‖-k2 + q‖) ∈ qRange qmin qmax} := by
    ext q
    have : ‖-k2 + q‖ = ‖k2 - q‖ := by rw [← norm_neg]; congr 1; abel
    show _ ∈ qRange qmin qmax ↔ _ ∈ qRange qmin qmax
    rw [this, min_self]
  have hK := compact_three k2 (-k2) qmin qmax
  rw [← hS] at hK
  clear hS
  set K := {q : E3 | min ‖q‖ ‖k2 - q‖ ∈ qRange qmin qmax}
  have l0 : ∀ q ∈ K, qmin ≤ ‖q‖ := fun q hq => (le_min_iff.1 hq.1).1
  have l1 : ∀ q ∈ K, qmin ≤ ‖k2 - q‖ := fun q hq => (le_min_iff.1 hq.1).2
  have hne : ∀ v : E3, qmin ≤ ‖v‖ → v ≠ 0 := fun v h e => by rw [e, norm_zero] at h; linarith
  have c1 := sptSym2_continuousOn b K (fun q => q) (fun q => k2 - q) (by fun_prop) (by fun_prop) (fun q hq => hne _ (l0 q hq))
    (fun q hq => hne _ (l1 q hq))
  obtain ⟨m0, B0, b0⟩ := hP.along K hK (fun q => q) (by fun_prop) qmin h0 l0
  obtain ⟨m1, B1, b1⟩ := hP.along K hK (fun q => k2 - q) (by fun_prop) qmin h0 l1
  obtain ⟨R0, r0⟩ := hK.exists_bound_of_continuousOn (f := fun q : E3 => q) (by fun_prop)
  obtain ⟨R1, r1⟩ := hK.exists_bound_of_continuousOn (f := fun q : E3 => k2 - q) (by fun_prop)
  have hd : ∀ v : E3, (toVec v).dot (toVec v) = ‖v‖ ^ 2 := fun v => by
    rw [← toVec_modulus, Vec.modulus, Real.sq_sqrt]
    simp only [Vec.dot]
    nlinarith [sq_nonneg (toVec v).x, sq_nonneg (toVec v).y, sq_nonneg (toVec v).z]
  have n3 : 0 < ‖k3‖ := norm_pos_iff.2 h3
  let m := min (qmin ^ 2) (‖k3‖ ^ 2)
  let M := max (‖k3‖ ^ 2) (max (R0 ^ 2) (R1 ^ 2))
  have hm : 0 < m := lt_min (by positivity) (by positivity)
  obtain ⟨C, hC⟩ := F3_bounded a m M hm
  have a3 : m ≤ (toVec k3).dot (toVec k3) ∧ (toVec k3).dot (toVec k3) ≤ M := by
    rw [hd]
    exact ⟨min_le_right _ _, le_max_left _ _⟩
  have a0 : ∀ q ∈ K, m ≤ (toVec q).dot (toVec q) ∧ (toVec q).dot (toVec q) ≤ M := fun q hq => by
    rw [hd]
    exact ⟨(min_le_left _ _).trans (pow_le_pow_left₀ h0.le (l0 q hq) 2),
      (pow_le_pow_left₀ (norm_nonneg _) (r0 q hq) 2).trans ((le_max_left _ _).trans (le_max_right _ _))⟩
  have a1 : ∀ q ∈ K, m ≤ (toVec (k2 - q)).dot (toVec (k2 - q)) ∧ (toVec (k2 - q)).dot (toVec (k2 - q)) ≤ M := fun q hq => by
    rw [hd]
    exact ⟨(min_le_left _ _).trans (pow_le_pow_left₀ h0.le (l1 q hq) 2),
      (pow_le_pow_left₀ (norm_nonneg _) (r1 q hq) 2).trans ((le_max_right _ _).trans (le_max_right _ _))⟩
  have hF : ∀ q ∈ K, |F3Sym a (toVec k3) (toVec q) (toVec (k2 - q))| ≤ C := fun q hq => by
    unfold F3Sym
    have e1 := hC _ _ _ a3.1 a3.2 (a0 q hq).1 (a0 q hq).2 (a1 q hq).1 (a1 q hq).2
    have e2 := hC _ _ _ (a1 q hq).1 (a1 q hq).2 a3.1 a3.2 (a0 q hq).1 (a0 q hq).2
    have e3 := hC _ _ _ (a0 q hq).1 (a0 q hq).2 (a1 q hq).1 (a1 q hq).2 a3.1 a3.2
    rw [abs_div, abs_of_pos (by norm_num : (0 : ℝ) < 3), div_le_iff₀ (by norm_num)]
    refine (abs_add_le _ _).trans ?_
    have := abs_add_le (F3 a (toVec k3) (toVec q) (toVec (k2 - q))) (F3 a (toVec (k2 - q)) (toVec k3) (toVec q))
    linarith
  have mF : Measurable fun q => F3Sym a (toVec k3) (toVec q) (toVec (k2 - q)) := by
    have f1 := F3_measurable a (fun _ => k3) (fun q => q) (fun q => k2 - q) (by fun_prop) (by fun_prop) (by fun_prop)
    have f2 := F3_measurable a (fun q => k2 - q) (fun _ => k3) (fun q => q) (by fun_prop) (by fun_prop) (by fun_prop)
    have f3 := F3_measurable a (fun q => q) (fun q => k2 - q) (fun _ => k3) (by fun_prop) (by fun_prop) (by fun_prop)
    exact ((f1.add f2).add f3).div_const 3
  have := integrableOn_bdd_mul K hK (fun q => F3Sym a (toVec k3) (toVec q) (toVec (k2 - q)) * P ‖q‖ * P ‖k2 - q‖)
    (fun q => 6 * sptSym2 b (toVec q) (toVec (k2 - q)) * P ‖k3‖ / (2 * Real.pi) ^ 3) ((mF.mul m0).mul m1) (C * B0 * B1)
    (fun q hq => by
      rw [abs_mul, abs_mul]
      have n0 := (abs_nonneg _).trans (hF q hq)
      have n1 := (abs_nonneg _).trans (b0 q hq)
      exact mul_le_mul (mul_le_mul (hF q hq) (b0 q hq) (abs_nonneg _) n0) (b1 q hq) (abs_nonneg _) (mul_nonneg n0 n1))
    (((continuousOn_const.mul c1).mul continuousOn_const).div_const _)
  refine this.congr_fun (fun q _ => ?_) hK.measurableSet
  unfold spec321
  simp only [← toVec_sub, toVec_modulus]
  ring

end Verif
