import Verif.Props.AKernel
import Verif.Props.Gamma1
import Verif.Props.LoopA
import Verif.Proofs.TameLook

/-!
# C65: the one-loop propagator as a loop integral

`gamma1_1loop` integrates closed kernels in the ratio of the loop momentum to the mode.  Here these kernels are compared with the
third-order kernel of standard perturbation theory, and the correction with its loop integral in Euclidean space.
-/

namespace Verif

open MeasureTheory Spec

/-- One ordering of the third-order kernel at `(q,-q,k)`, in terms of `K = k.k`, `Q = q.q` and `c = k.q`. -/
noncomputable def loopPart (a : Field) (K Q c : ℝ) : ℝ :=
  let Y := K + Q - 2 * c
  match a with
  | .delta => 1 / 18 * ((7 * ((K - c) / Y) + 4 * (K * (c - Q) / (2 * Q * Y))) * F2Fast .theta Q K (-c) + 7 * (c / Q) * F2Fast .delta Q K (-c))
  | .theta => 1 / 18 * ((3 * ((K - c) / Y) + 12 * (K * (c - Q) / (2 * Q * Y))) * F2Fast .theta Q K (-c) + 3 * (c / Q) * F2Fast .delta Q K (-c))

theorem sptSym3_loop (a : Field) (k q : Vec) (hk : 0 < k.dot k) (hq : 0 < q.dot q) :
    sptSym3 a k q (-q) = (loopPart a (k.dot k) (q.dot q) (k.dot q) + loopPart a (k.dot k) (q.dot q) (-k.dot q)) / 3 := by
  have hA : ∀ u v : Vec, sptAlpha u v = (u.dot u + v.dot u) / u.dot u := fun u v => by rw [sptAlpha, Vec.add_dot]
  have hB : ∀ u v : Vec, sptBeta u v = (u.dot u + v.dot v + 2 * u.dot v) * u.dot v / (2 * u.dot u * v.dot v) := fun u v => by
    rw [sptBeta, Vec.add_dot_self]
  have d1 : (k + q).dot (k + q) = k.dot k + q.dot q + 2 * k.dot q := Vec.add_dot_self _ _
  have d2 : (k + -q).dot (k + -q) = k.dot k + q.dot q - 2 * k.dot q := by simp only [Vec.dot, Vec.add_x, Vec.add_y, Vec.add_z, Vec.neg_x, Vec.neg_y, Vec.neg_z]; ring
  have z : ∀ v : Vec, (q + -q).dot v = 0 ∧ v.dot (q + -q) = 0 ∧ (-q + q).dot v = 0 ∧ v.dot (-q + q) = 0 := fun v => by
    refine ⟨?_, ?_, ?_, ?_⟩ <;> simp only [Vec.dot, Vec.add_x, Vec.add_y, Vec.add_z, Vec.neg_x, Vec.neg_y, Vec.neg_z] <;> ring
  have n : ∀ u v : Vec, (-u).dot v = -u.dot v ∧ u.dot (-v) = -u.dot v := fun u v => by
    refine ⟨?_, ?_⟩ <;> simp only [Vec.dot, Vec.neg_x, Vec.neg_y, Vec.neg_z] <;> ring
  have a' : ∀ u v w : Vec, (u + v).dot w = u.dot w + v.dot w ∧ w.dot (u + v) = w.dot u + w.dot v := fun u v w => by
    refine ⟨?_, ?_⟩ <;> simp only [Vec.dot, Vec.add_x, Vec.add_y, Vec.add_z] <;> ring
  unfold sptSym3 loopPart
  cases a <;>
  · simp only [sptKernel, List.length_cons, List.length_nil, spt3, spt2, Nat.reduceAdd, hA, hB]
    simp only [Vec.add_comm q k, Vec.add_comm (-q) k, (z _).1, (z _).2.1, (z _).2.2.1, (z _).2.2.2, d1, d2]
    simp only [(a' _ _ _).1, (a' _ _ _).2, (n _ _).1, (n _ _).2, Vec.dot_comm q k]
    have y1 : k.dot k + q.dot q - 2 * -k.dot q = k.dot k + q.dot q + 2 * k.dot q := by ring
    rw [y1]
    simp only [F2Fast]
    generalize k.dot k = K at *
    generalize q.dot q = Q at *
    generalize k.dot q = c at *
    generalize hY : K + Q - 2 * c = Y at *
    generalize hZ : K + Q + 2 * c = Z at *
    by_cases h1 : Y = 0 <;> by_cases h2 : Z = 0
    · exact absurd (by linarith : K + Q = 0) (by positivity)
    · obtain rfl : Z = 2 * (K + Q) := by linarith
      obtain rfl : c = (K + Q) / 2 := by linarith
      subst h1
      have : K + Q ≠ 0 := by positivity
      simp only [mul_zero, zero_mul, div_zero, add_zero, zero_add]
      field_simp
      ring
    · obtain rfl : Y = 2 * (K + Q) := by linarith
      obtain rfl : c = -((K + Q) / 2) := by linarith
      subst h2
      have : K + Q ≠ 0 := by positivity
      simp only [mul_zero, zero_mul, div_zero, add_zero, zero_add]
      field_simp
      ring
    · field_simp
      rw [← hY, ← hZ]
      ring

/-- The closed form of the one-loop propagator kernel of a field. -/
noncomputable def propClosed (a : Field) (x : ℝ) : ℝ :=
  match a with
  | .delta => ffClosed x
  | .theta => ggClosed x

/-- Coefficients of `loopPart` over the squared side `1+x²-2xμ`, in powers of the cosine. -/
noncomputable def loopNum (a : Field) (x : ℝ) : Fin 5 → ℝ :=
  let u := (1 + x ^ 2) / (2 * x)
  let s : ℝ := match a with
    | .delta => 7
    | .theta => 3
  let b0 : ℝ := match a with
    | .delta => 5
    | .theta => -3
  let b1 : ℝ := match a with
    | .delta => 2 / x - 7 * x
    | .theta => 6 / x - 3 * x
  ![1 / 18 * (3 / 7 * b0), 1 / 18 * (3 / 7 * b1 - u * b0 + s / x * (5 / 7 * (1 + x ^ 2))),
    1 / 18 * (-u * b1 + 4 / 7 * b0 + s / x * (-u * (1 + x ^ 2) - 10 / 7 * x)), 1 / 18 * (4 / 7 * b1 + s / x * (2 / 7 * (1 + x ^ 2) + 2 * x * u)),
    1 / 18 * (-s * (4 / 7))]

theorem loopPart_num (a : Field) (x mu : ℝ) (hx : x ≠ 0) (hy : 1 + x ^ 2 - 2 * mu * x ≠ 0) : loopPart a 1 (x ^ 2) (x * mu) =
    (loopNum a x 0 + loopNum a x 1 * mu + loopNum a x 2 * mu ^ 2 + loopNum a x 3 * mu ^ 3 + loopNum a x 4 * mu ^ 4)
      / (1 + x ^ 2 - 2 * mu * x) := by
  unfold loopPart loopNum
  have e : 1 + x ^ 2 - 2 * (x * mu) = 1 + x ^ 2 - 2 * mu * x := by ring
  rw [e]
  generalize hY : 1 + x ^ 2 - 2 * mu * x = Y at *
  cases a <;> simp [F2Fast] <;> field_simp <;> rw [← hY] <;> ring

theorem loopPart_integral (a : Field) (x : ℝ) (hx : 0 < x) (h1 : x ≠ 1) :
    ∫ mu in (-1 : ℝ)..1, loopPart a 1 (x ^ 2) (x * mu) = propClosed a x / x ^ 2 := by
  have e : Set.EqOn (fun mu => loopPart a 1 (x ^ 2) (x * mu)) (fun mu => (loopNum a x 0 + loopNum a x 1 * mu + loopNum a x 2 * mu ^ 2
      + loopNum a x 3 * mu ^ 3 + loopNum a x 4 * mu ^ 4) / (1 + x ^ 2 - 2 * mu * x)) (Set.uIcc (-1) 1) := fun mu hmu => by
    refine loopPart_num a x mu hx.ne' ?_
    rw [Set.uIcc_of_le (by norm_num)] at hmu
    have : 0 < (1 - x) ^ 2 := by have : 1 - x ≠ 0 := fun h => h1 (by linarith); positivity
    nlinarith [hmu.1, hmu.2]
  rw [intervalIntegral.integral_congr e, quartic_over_side x ((1 + x ^ 2) / (2 * x)) _ _ _ _ _ hx h1 (by field_simp)]
  have hl : Real.log (|(1 - x) / (1 + x)| ^ 2) = -2 * Real.log |(x + 1) / (x - 1)| := by
    have : |(1 - x) / (1 + x)| = |(x + 1) / (x - 1)|⁻¹ := by
      rw [← abs_inv, inv_div, ← abs_neg, ← neg_div, neg_sub, add_comm]
    rw [this, Real.log_pow, Real.log_inv]
    push_cast
    ring
  unfold propClosed ffClosed ggClosed loopNum
  rw [hl]
  generalize Real.log |(x + 1) / (x - 1)| = L
  cases a <;> simp <;> field_simp <;> ring

theorem loopPart_continuousOn (a : Field) (x : ℝ) (hx : 0 < x) (h1 : x ≠ 1) :
    ContinuousOn (fun mu => loopPart a 1 (x ^ 2) (x * mu)) (Set.Icc (-1) 1) := by
  have hy : ∀ mu ∈ Set.Icc (-1 : ℝ) 1, 1 + x ^ 2 - 2 * mu * x ≠ 0 := fun mu hmu => by
    have : 0 < (1 - x) ^ 2 := by have : 1 - x ≠ 0 := fun h => h1 (by linarith); positivity
    nlinarith [hmu.1, hmu.2]
  refine ContinuousOn.congr (f := fun mu => (loopNum a x 0 + loopNum a x 1 * mu + loopNum a x 2 * mu ^ 2
      + loopNum a x 3 * mu ^ 3 + loopNum a x 4 * mu ^ 4) / (1 + x ^ 2 - 2 * mu * x)) ?_ fun mu hmu => loopPart_num a x mu hx.ne' (hy mu hmu)
  exact ContinuousOn.div (by fun_prop) (by fun_prop) hy

theorem loopPart_two (a : Field) (x : ℝ) (hx : 0 < x) (h1 : x ≠ 1) :
    ∫ mu in (-1 : ℝ)..1, (loopPart a 1 (x ^ 2) (x * mu) + loopPart a 1 (x ^ 2) (-(x * mu))) / 3 = 2 / 3 * (propClosed a x / x ^ 2) := by
  have hc := loopPart_continuousOn a x hx h1
  have hi : IntervalIntegrable (fun mu => loopPart a 1 (x ^ 2) (x * mu)) volume (-1) 1 :=
    ContinuousOn.intervalIntegrable (by rwa [Set.uIcc_of_le (by norm_num)])
  have hn : ∀ mu : ℝ, -(x * mu) = x * -mu := fun mu => by ring
  have hi' : IntervalIntegrable (fun mu => loopPart a 1 (x ^ 2) (x * -mu)) volume (-1) 1 := by
    refine ContinuousOn.intervalIntegrable ?_
    rw [Set.uIcc_of_le (by norm_num)]
    exact hc.comp continuous_neg.continuousOn fun mu hmu => ⟨by linarith [hmu.2], by linarith [hmu.1]⟩
  simp only [hn]
  rw [intervalIntegral.integral_div, intervalIntegral.integral_add hi hi',
    intervalIntegral.integral_comp_neg (fun mu => loopPart a 1 (x ^ 2) (x * mu)), neg_neg, loopPart_integral a x hx h1]
  ring

theorem loopPart_scale (a : Field) (κ x c : ℝ) (hκ : κ ≠ 0) (hx : x ≠ 0) : loopPart a (κ ^ 2) ((κ * x) ^ 2) (κ ^ 2 * c) = loopPart a 1 (x ^ 2) c := by
  unfold loopPart
  have e : κ ^ 2 + (κ * x) ^ 2 - 2 * (κ ^ 2 * c) = κ ^ 2 * (1 + x ^ 2 - 2 * c) := by ring
  rw [e]
  generalize 1 + x ^ 2 - 2 * c = Y
  by_cases hY : Y = 0
  · subst hY
    cases a <;> simp only [F2Fast, mul_zero, div_zero] <;> field_simp
  · cases a <;> simp only [F2Fast] <;> field_simp

/-- C65: the one-loop propagator kernel is the average of the third-order kernel over the direction of the loop momentum. -/
theorem C65_angle (a : Field) (k q : ℝ) (hk : 0 < k) (hq : 0 < q) (h1 : q ≠ k) :
    3 / 2 * (q / k) ^ 2 * ∫ mu in (-1 : ℝ)..1, sptSym3 a ⟨0, 0, k⟩ ⟨q * Real.sqrt (1 - mu ^ 2), 0, q * mu⟩ (-⟨q * Real.sqrt (1 - mu ^ 2), 0, q * mu⟩)
      = propClosed a (q / k) := by
  obtain ⟨x, rfl⟩ : ∃ x, q = k * x := ⟨q / k, by field_simp⟩
  have hx : 0 < x := (mul_pos_iff_of_pos_left hk).1 hq
  have h1 : x ≠ 1 := fun h => h1 (by rw [h, mul_one])
  have e : Set.EqOn (fun mu => sptSym3 a ⟨0, 0, k⟩ ⟨k * x * Real.sqrt (1 - mu ^ 2), 0, k * x * mu⟩ (-⟨k * x * Real.sqrt (1 - mu ^ 2), 0, k * x * mu⟩))
      (fun mu => (loopPart a 1 (x ^ 2) (x * mu) + loopPart a 1 (x ^ 2) (-(x * mu))) / 3) (Set.uIcc (-1) 1) := fun mu hmu => by
    rw [Set.uIcc_of_le (by norm_num)] at hmu
    have hs := Real.mul_self_sqrt (by nlinarith [hmu.1, hmu.2] : 0 ≤ 1 - mu ^ 2)
    have h1 : Vec.dot ⟨0, 0, k⟩ ⟨0, 0, k⟩ = k ^ 2 := by simp only [Vec.dot]; ring
    have h2 : Vec.dot ⟨k * x * Real.sqrt (1 - mu ^ 2), 0, k * x * mu⟩ ⟨k * x * Real.sqrt (1 - mu ^ 2), 0, k * x * mu⟩ = (k * x) ^ 2 := by
      simp only [Vec.dot]
      linear_combination (k * x) ^ 2 * hs
    have h3 : Vec.dot ⟨0, 0, k⟩ ⟨k * x * Real.sqrt (1 - mu ^ 2), 0, k * x * mu⟩ = k ^ 2 * (x * mu) := by
      simp only [Vec.dot]
      ring
    beta_reduce
    rw [sptSym3_loop a _ _ (by rw [h1]; positivity) (by rw [h2]; positivity), h1, h2, h3, ← mul_neg, loopPart_scale a k x _ hk.ne' hx.ne',
      loopPart_scale a k x _ hk.ne' hx.ne']
  rw [intervalIntegral.integral_congr e, loopPart_two a x hx h1, mul_div_cancel_left₀ _ hk.ne']
  field_simp

theorem loopPart_bound (a : Field) (m M : ℝ) (hm : 0 < m) : ∃ C, ∀ k q : Vec, m ≤ k.dot k → k.dot k ≤ M → m ≤ q.dot q → q.dot q ≤ M →
    |loopPart a (k.dot k) (q.dot q) (k.dot q)| ≤ C := by
  refine ⟨1 / 18 * ((14 * M + 12 * M * (2 * M) / m) * (1 / m) + 7 * (M / m) * (5 / 7 + M * (1 / m) + 2 / 7 * M ^ 2 / m ^ 2)), fun k q k1 k2 q1 q2 => ?_⟩
  have hb := F2_theta_bound m hm (-q) k (by rwa [Vec.neg_dot_neg]) k1
  have hY : (-q + k).dot (-q + k) = k.dot k + q.dot q - 2 * k.dot q := by
    simp only [Vec.dot, Vec.add_x, Vec.add_y, Vec.add_z, Vec.neg_x, Vec.neg_y, Vec.neg_z]; ring
  have hY0 := Vec.dot_self_nonneg (-q + k)
  rw [hY] at hb hY0
  have hcc := vec_cauchy k q
  have hn : (-q).dot k = -k.dot q := by simp only [Vec.dot, Vec.neg_x, Vec.neg_y, Vec.neg_z]; ring
  rw [Vec.neg_dot_neg, hn] at hb
  generalize k.dot k = K at *
  generalize q.dot q = Q at *
  generalize k.dot q = c at *
  have hK : 0 < K := hm.trans_le k1
  have hQ : 0 < Q := hm.trans_le q1
  have hM : 0 < M := hK.trans_le k2
  have hc : |c| ≤ M := by
    refine abs_le_of_sq_le_sq ?_ hM.le
    nlinarith
  have hF : |F2Fast .delta Q K (-c)| ≤ 5 / 7 + M * (1 / m) + 2 / 7 * M ^ 2 / m ^ 2 := by
    simp only [F2Fast]
    have i1 : 1 / Q ≤ 1 / m := one_div_le_one_div_of_le hm q1
    have i2 : 1 / K ≤ 1 / m := one_div_le_one_div_of_le hm k1
    have i3 : |1 / 2 * -c * (1 / Q + 1 / K)| ≤ M * (1 / m) := by
      rw [abs_mul, abs_mul, abs_neg, abs_of_pos (by positivity : (0 : ℝ) < 1 / 2), abs_of_pos (by positivity : 0 < 1 / Q + 1 / K)]
      calc 1 / 2 * |c| * (1 / Q + 1 / K) ≤ 1 / 2 * M * (1 / m + 1 / m) := by gcongr
        _ = _ := by ring
    have i4 : |2 / 7 * -c * -c / Q / K| ≤ 2 / 7 * M ^ 2 / m ^ 2 := by
      have e : 2 / 7 * -c * -c / Q / K = 2 / 7 * c ^ 2 * (1 / Q) * (1 / K) := by field_simp
      have h2 : c ^ 2 ≤ M ^ 2 := sq_le_sq' (by linarith [abs_le.1 hc]) (abs_le.1 hc).2
      rw [e, abs_of_nonneg (by positivity)]
      calc 2 / 7 * c ^ 2 * (1 / Q) * (1 / K) ≤ 2 / 7 * M ^ 2 * (1 / m) * (1 / m) := by gcongr
        _ = _ := by field_simp
    refine (abs_add_le _ _).trans (add_le_add ((abs_add_le _ _).trans (add_le_add ?_ i3)) i4)
    rw [abs_of_pos (by norm_num)]
  have hG : ∀ n : ℝ, |n / (K + Q - 2 * c) * F2Fast .theta Q K (-c)| ≤ |n| * (1 / m) := fun n => by
    rcases hY0.eq_or_lt with e | e
    · rw [← e, div_zero, zero_mul, abs_zero]
      positivity
    · rw [abs_mul, abs_div, abs_of_pos e, div_mul_eq_mul_div, div_le_iff₀ e]
      nlinarith [mul_le_mul_of_nonneg_left hb (abs_nonneg n)]
  have hK' : |K - c| ≤ 2 * M := by
    refine (abs_sub _ _).trans ?_
    rw [abs_of_pos hK]
    linarith
  have hR : |K * (c - Q) / Q| ≤ M * (2 * M) / m := by
    rw [abs_div, abs_mul, abs_of_pos hK, abs_of_pos hQ]
    have : |c - Q| ≤ 2 * M := by
      refine (abs_sub _ _).trans ?_
      rw [abs_of_pos hQ]
      linarith
    gcongr
  have key : ∀ s r : ℝ, 0 ≤ s → s ≤ 7 → 0 ≤ r → r ≤ 12 →
      |1 / 18 * ((s * ((K - c) / (K + Q - 2 * c)) + r * (K * (c - Q) / (2 * Q * (K + Q - 2 * c)))) * F2Fast .theta Q K (-c)
        + s * (c / Q) * F2Fast .delta Q K (-c))| ≤ 1 / 18 * ((14 * M + 12 * M * (2 * M) / m) * (1 / m) + 7 * (M / m) * (5 / 7 + M * (1 / m) + 2 / 7 * M ^ 2 / m ^ 2)) := by
    intro s r s0 s1 r0 r1
    have e : s * ((K - c) / (K + Q - 2 * c)) + r * (K * (c - Q) / (2 * Q * (K + Q - 2 * c)))
        = (s * (K - c) + r / 2 * (K * (c - Q) / Q)) / (K + Q - 2 * c) := by
      generalize K + Q - 2 * c = Y
      ring
    rw [e, abs_mul, abs_of_pos (by norm_num : (0 : ℝ) < 1 / 18)]
    refine mul_le_mul_of_nonneg_left ((abs_add_le _ _).trans (add_le_add ((hG _).trans ?_) ?_)) (by norm_num)
    · refine mul_le_mul_of_nonneg_right ((abs_add_le _ _).trans ?_) (by positivity)
      rw [abs_mul, abs_mul, abs_of_nonneg s0, abs_of_nonneg (by positivity : 0 ≤ r / 2)]
      have a1 : s * |K - c| ≤ 7 * (2 * M) := by gcongr
      have a2 : r / 2 * |K * (c - Q) / Q| ≤ 12 * (M * (2 * M) / m) := by
        have : r / 2 ≤ 12 := by linarith
        gcongr
      calc _ ≤ 7 * (2 * M) + 12 * (M * (2 * M) / m) := add_le_add a1 a2
        _ = _ := by ring
    · rw [abs_mul, abs_mul, abs_of_nonneg s0, abs_div, abs_of_pos hQ]
      gcongr
  cases a
  · exact key 7 4 (by norm_num) (by norm_num) (by norm_num) (by norm_num)
  · exact key 3 12 (by norm_num) (by norm_num) (by norm_num) (by norm_num)

/-- Integral over the cube of a function that does not depend on the third coordinate. -/
theorem integral_cube3 (h : ℝ → ℝ → ℝ) (hi : IntegrableOn (fun w : ℝ × ℝ => h w.1 w.2) (Set.Ioo 0 1 ×ˢ Set.Ioo 0 1)) :
    ∫ u in cube3, h (u 0) (u 1) = ∫ x in Set.Ioo (0 : ℝ) 1, ∫ y in Set.Ioo (0 : ℝ) 1, h x y := by
  have m1 := volume_preserving_piFinSuccAbove (fun _ : Fin 3 => ℝ) 2
  have m2 := volume_preserving_finTwoArrow ℝ
  have e1 := m1.setIntegral_preimage_emb (MeasurableEquiv.measurableEmbedding _) (fun w : ℝ × (Fin 2 → ℝ) => 1 * h (w.2 0) (w.2 1))
    (Set.Ioo 0 1 ×ˢ Set.univ.pi fun _ => Set.Ioo 0 1)
  have e2 := m2.setIntegral_preimage_emb (MeasurableEquiv.measurableEmbedding _) (fun w : ℝ × ℝ => h w.1 w.2) (Set.Ioo 0 1 ×ˢ Set.Ioo 0 1)
  have p1 : (MeasurableEquiv.piFinSuccAbove (fun _ : Fin 3 => ℝ) 2) ⁻¹' (Set.Ioo 0 1 ×ˢ Set.univ.pi fun _ => Set.Ioo 0 1) = cube3 := by
    ext u
    simp only [Set.mem_preimage, Set.mem_prod, Set.mem_pi, Set.mem_univ, true_imp_iff, cube3]
    constructor
    · rintro ⟨a, b⟩ i
      fin_cases i
      · exact b 0
      · exact b 1
      · exact a
    · intro a
      refine ⟨a 2, fun i => ?_⟩
      fin_cases i
      · exact a 0
      · exact a 1
  have p2 : MeasurableEquiv.finTwoArrow ⁻¹' (Set.Ioo (0 : ℝ) 1 ×ˢ Set.Ioo (0 : ℝ) 1) = Set.univ.pi fun _ => Set.Ioo 0 1 := by
    ext u
    simp only [Set.mem_preimage, Set.mem_prod, Set.mem_pi, Set.mem_univ, true_imp_iff, Fin.forall_fin_two]
    rfl
  rw [p1] at e1
  rw [p2] at e2
  have e3 := setIntegral_prod_mul (μ := volume) (ν := volume) (fun _ : ℝ => (1 : ℝ)) (fun w : Fin 2 → ℝ => h (w 0) (w 1)) (Set.Ioo 0 1)
    (Set.univ.pi fun _ => Set.Ioo 0 1)
  rw [← setIntegral_prod (fun w : ℝ × ℝ => h w.1 w.2) hi, ← Measure.volume_eq_prod, ← e2]
  refine Eq.trans ?_ (e1.trans (e3.trans ?_))
  · refine integral_congr_ae (Filter.Eventually.of_forall fun u => ?_)
    show _ = 1 * _
    rw [one_mul]
    rfl
  · simp

theorem integral_cos (g : ℝ → ℝ) (hg : ContinuousOn g (Set.Icc (-1) 1)) :
    ∫ y in Set.Ioo (0 : ℝ) 1, g (Real.cos (Real.pi * y)) * (Real.pi * Real.sin (Real.pi * y)) = ∫ mu in (-1 : ℝ)..1, g mu := by
  have := intervalIntegral.integral_comp_mul_deriv'' (a := 0) (b := 1) (f := fun y => Real.cos (Real.pi * y))
    (f' := fun y => -(Real.pi * Real.sin (Real.pi * y))) (g := g) (by fun_prop) (fun y _ => by
      have h := ((hasDerivAt_id y).const_mul Real.pi).cos
      refine (h.congr_deriv ?_).hasDerivWithinAt
      simp
      ring) (by fun_prop) (hg.mono (by
        rintro _ ⟨y, _, rfl⟩
        exact ⟨Real.neg_one_le_cos _, Real.cos_le_one _⟩))
  simp only [Function.comp, mul_zero, Real.cos_zero, mul_one, Real.cos_pi, mul_neg, intervalIntegral.integral_neg] at this
  rw [intervalIntegral.integral_symm (-1) 1, neg_inj, intervalIntegral.integral_of_le zero_le_one, integral_Ioc_eq_integral_Ioo] at this
  exact this

theorem loopPart_measurable (a : Field) (K Q c : ℝ × ℝ → ℝ) (hK : Measurable K) (hQ : Measurable Q) (hc : Measurable c) :
    Measurable fun w => loopPart a (K w) (Q w) (c w) := by
  unfold loopPart F2Fast
  cases a <;> (dsimp only; fun_prop)

/-- The loop integral along the third axis. -/
theorem loop_axis (a : Field) (P : ℝ → ℝ) (hP : Tame P) (κ qmin qmax : ℝ) (hk : 0 < κ) (h0 : 0 < qmin) (h1 : qmin < qmax) :
    ∫ q in {q : E3 | qmin ≤ ‖q‖ ∧ ‖q‖ ≤ qmax}, sptSym3 a ⟨0, 0, κ⟩ (toVec q) (-toVec q) * P ‖q‖
      = 4 * Real.pi / 3 * κ ^ 3 * ∫ x in (qmin / κ)..(qmax / κ), propClosed a x * P (κ * x) := by
  rw [integral_shell qmin qmax h0 h1]
  set L := Real.log (qmax / qmin) with hL
  have hL0 : 0 < L := Real.log_pos ((one_lt_div h0).2 h1)
  let r : ℝ → ℝ := fun u => qmin * Real.exp (L * u)
  let G : ℝ → ℝ → ℝ := fun x c => (loopPart a (κ ^ 2) (r x ^ 2) (κ * r x * c) + loopPart a (κ ^ 2) (r x ^ 2) (-(κ * r x * c))) / 3
  let H : ℝ → ℝ → ℝ := fun x y => G x (Real.cos (Real.pi * y)) * (Real.pi * Real.sin (Real.pi * y)) * (P (r x) * (L * (2 * Real.pi) * r x ^ 3))
  have hr : ∀ u, 0 < r u := fun u => mul_pos h0 (Real.exp_pos _)
  have e1 : ∀ u ∈ cube3, sptSym3 a ⟨0, 0, κ⟩ (toVec (WithLp.toLp 2 (sph qmin L u))) (-toVec (WithLp.toLp 2 (sph qmin L u)))
      * P ‖(WithLp.toLp 2 (sph qmin L u) : E3)‖ * (L * Real.pi * (2 * Real.pi) * (qmin * Real.exp (L * u 0)) ^ 3 * Real.sin (Real.pi * u 1))
      = H (u 0) (u 1) := fun u _ => by
    have hsq := sph_sq qmin L u
    have hn : ‖(WithLp.toLp 2 (sph qmin L u) : E3)‖ = r (u 0) := by
      rw [EuclideanSpace.norm_eq, Fin.sum_univ_three]
      simp only [Real.norm_eq_abs, sq_abs]
      rw [hsq, Real.sqrt_sq (hr _).le]
    have d1 : Vec.dot ⟨0, 0, κ⟩ ⟨0, 0, κ⟩ = κ ^ 2 := by simp only [Vec.dot]; ring
    have d2 : (toVec (WithLp.toLp 2 (sph qmin L u))).dot (toVec (WithLp.toLp 2 (sph qmin L u))) = r (u 0) ^ 2 := by
      rw [← hsq]
      simp only [Vec.dot, toVec]
      ring
    have d3 : Vec.dot ⟨0, 0, κ⟩ (toVec (WithLp.toLp 2 (sph qmin L u))) = κ * r (u 0) * Real.cos (Real.pi * u 1) := by
      simp only [Vec.dot, toVec, sph, Matrix.cons_val, r]
      ring
    rw [sptSym3_loop a _ _ (by rw [d1]; positivity) (by rw [d2]; exact pow_pos (hr _) 2), d1, d2, d3, hn]
    simp only [H, G, r]
    ring
  rw [setIntegral_congr_fun cube3_measurable e1, integral_cube3]
  · have hinj : Function.Injective fun u => r u / κ := fun u v h => by
      have h2 : r u = r v := by
        have := congrArg (· * κ) h
        simpa [div_mul_cancel₀ _ hk.ne'] using this
      have h3 := Real.exp_injective (mul_left_cancel₀ h0.ne' h2)
      exact mul_left_cancel₀ hL0.ne' h3
    have hd : ∀ u ∈ Set.Ioo (0 : ℝ) 1, HasDerivWithinAt (fun u => r u / κ) (L * r u / κ) (Set.Ioo 0 1) u := fun u _ => by
      have h := ((((hasDerivAt_id u).const_mul L).exp).const_mul qmin).div_const κ
      refine (h.congr_deriv ?_).hasDerivWithinAt
      simp only [r, id]
      ring
    have himg : (fun u => r u / κ) '' Set.Ioo 0 1 = Set.Ioo (qmin / κ) (qmax / κ) := by
      have hb : qmin * Real.exp L = qmax := by
        rw [hL, Real.exp_log (div_pos (h0.trans h1) h0)]
        field_simp
      ext x
      constructor
      · rintro ⟨u, ⟨u0, u1⟩, rfl⟩
        constructor
        · refine div_lt_div_of_pos_right ?_ hk
          exact lt_mul_of_one_lt_right h0 (Real.one_lt_exp_iff.2 (mul_pos hL0 u0))
        · refine div_lt_div_of_pos_right ?_ hk
          rw [← hb]
          exact mul_lt_mul_of_pos_left (Real.exp_lt_exp.2 (mul_lt_of_lt_one_right hL0 u1)) h0
      · rintro ⟨x0, x1⟩
        have xk0 : qmin < x * κ := (div_lt_iff₀ hk).1 x0
        have xk1 : x * κ < qmax := (lt_div_iff₀ hk).1 x1
        refine ⟨Real.log (x * κ / qmin) / L, ⟨div_pos (Real.log_pos ((one_lt_div h0).2 xk0)) hL0, ?_⟩, ?_⟩
        · rw [div_lt_one hL0, hL]
          exact Real.log_lt_log (div_pos (h0.trans xk0) h0) (div_lt_div_of_pos_right xk1 h0)
        · simp only [r]
          rw [mul_div_cancel₀ _ hL0.ne', Real.exp_log (div_pos (h0.trans xk0) h0)]
          field_simp
    rw [intervalIntegral.integral_of_le (div_le_div_of_nonneg_right h1.le hk.le), integral_Ioc_eq_integral_Ioo, ← himg,
      integral_image_eq_integral_abs_deriv_smul measurableSet_Ioo hd hinj.injOn, ← integral_const_mul]
    refine integral_congr_ae ?_
    have hne : ∀ᵐ u ∂(volume.restrict (Set.Ioo (0 : ℝ) 1)), r u / κ ≠ 1 := by
      refine ae_restrict_of_ae ?_
      have : Set.Subsingleton {u | ¬ r u / κ ≠ 1} := fun u hu v hv => hinj ((not_not.1 hu).trans (not_not.1 hv).symm)
      exact this.measure_zero volume
    filter_upwards [hne] with u hu
    have hρ : 0 < r u / κ := div_pos (hr u) hk
    have hG : ∀ c, G u c = (loopPart a 1 ((r u / κ) ^ 2) (r u / κ * c) + loopPart a 1 ((r u / κ) ^ 2) (-(r u / κ * c))) / 3 := fun c => by
      rw [← loopPart_scale a κ (r u / κ) (r u / κ * c) hk.ne' hρ.ne', ← loopPart_scale a κ (r u / κ) (-(r u / κ * c)) hk.ne' hρ.ne',
        mul_div_cancel₀ _ hk.ne', show κ ^ 2 * (r u / κ * c) = κ * r u * c by field_simp,
        show κ ^ 2 * (-(r u / κ * c)) = -(κ * r u * c) by field_simp]
    have hGc : ContinuousOn (G u) (Set.Icc (-1) 1) := by
      rw [show G u = _ from funext hG]
      have hc := loopPart_continuousOn a _ hρ hu
      have hn : ∀ mu : ℝ, -(r u / κ * mu) = r u / κ * -mu := fun mu => by ring
      simp only [hn]
      exact (hc.add (hc.comp continuous_neg.continuousOn fun mu hmu => ⟨by linarith [hmu.2], by linarith [hmu.1]⟩)).div_const _
    show ∫ y in Set.Ioo (0 : ℝ) 1, G u (Real.cos (Real.pi * y)) * (Real.pi * Real.sin (Real.pi * y)) * (P (r u) * (L * (2 * Real.pi) * r u ^ 3)) = _
    rw [integral_mul_const, integral_cos _ hGc, intervalIntegral.integral_congr (fun c _ => hG c), loopPart_two a _ hρ hu,
      abs_of_pos (by have := hr u; positivity), smul_eq_mul, mul_div_cancel₀ _ hk.ne']
    have := (hr u).ne'
    field_simp
    ring
  · have hx : ∀ x ∈ Set.Ioo (0 : ℝ) 1, qmin ≤ r x ∧ r x ≤ qmax := fun x hx => by
      have hb : qmin * Real.exp L = qmax := by
        rw [hL, Real.exp_log (div_pos (h0.trans h1) h0)]
        field_simp
      constructor
      · exact le_mul_of_one_le_right h0.le (Real.one_le_exp_iff.2 (mul_pos hL0 hx.1).le)
      · rw [← hb]
        exact mul_le_mul_of_nonneg_left (Real.exp_le_exp.2 (mul_le_of_le_one_right hL0.le hx.2.le)) h0.le
    obtain ⟨C, hC⟩ := loopPart_bound a (min (κ ^ 2) (qmin ^ 2)) (max (κ ^ 2) (qmax ^ 2)) (lt_min (by positivity) (by positivity))
    obtain ⟨B, hB⟩ := hP.bdd qmin qmax h0
    have hlp : ∀ x ∈ Set.Ioo (0 : ℝ) 1, ∀ c, c ^ 2 ≤ 1 → |loopPart a (κ ^ 2) (r x ^ 2) (κ * r x * c)| ≤ C := fun x hxx c hc => by
      obtain ⟨x1, x2⟩ := hx x hxx
      have hs := Real.mul_self_sqrt (sub_nonneg.2 hc)
      have d1 : Vec.dot ⟨0, 0, κ⟩ ⟨0, 0, κ⟩ = κ ^ 2 := by simp only [Vec.dot]; ring
      have d2 : Vec.dot ⟨r x * Real.sqrt (1 - c ^ 2), 0, r x * c⟩ ⟨r x * Real.sqrt (1 - c ^ 2), 0, r x * c⟩ = r x ^ 2 := by
        simp only [Vec.dot]
        linear_combination r x ^ 2 * hs
      have d3 : Vec.dot ⟨0, 0, κ⟩ ⟨r x * Real.sqrt (1 - c ^ 2), 0, r x * c⟩ = κ * r x * c := by
        simp only [Vec.dot]
        ring
      have := hC ⟨0, 0, κ⟩ ⟨r x * Real.sqrt (1 - c ^ 2), 0, r x * c⟩
      rw [d1, d2, d3] at this
      exact this (min_le_left _ _) (le_max_left _ _) ((min_le_right _ _).trans (pow_le_pow_left₀ h0.le x1 2))
        ((pow_le_pow_left₀ (hr x).le x2 2).trans (le_max_right _ _))
    have hC0 : 0 ≤ C := (abs_nonneg _).trans (hlp (1 / 2) ⟨by norm_num, by norm_num⟩ 0 (by norm_num))
    have hB0 : 0 ≤ B := (abs_nonneg _).trans (hB qmin le_rfl h1.le)
    have hrm : Measurable r := by fun_prop
    refine Measure.integrableOn_of_bounded (M := (C + C) / 3 * Real.pi * (B * (L * (2 * Real.pi) * qmax ^ 3))) ?_ ?_ ?_
    · rw [Measure.volume_eq_prod, Measure.prod_prod]
      simp
    · have hPm := hP.meas
      have c1 := loopPart_measurable a (fun _ => κ ^ 2) (fun w => r w.1 ^ 2) (fun w => κ * r w.1 * Real.cos (Real.pi * w.2)) (by fun_prop)
        (by fun_prop) (by fun_prop)
      have c2 := loopPart_measurable a (fun _ => κ ^ 2) (fun w => r w.1 ^ 2) (fun w => -(κ * r w.1 * Real.cos (Real.pi * w.2))) (by fun_prop)
        (by fun_prop) (by fun_prop)
      refine Measurable.aestronglyMeasurable ?_
      simp only [H, G]
      fun_prop
    · refine (ae_restrict_iff' (measurableSet_Ioo.prod measurableSet_Ioo)).2 (Filter.Eventually.of_forall fun w hw => ?_)
      obtain ⟨x1, x2⟩ := hx w.1 hw.1
      have g1 := hlp w.1 hw.1 (Real.cos (Real.pi * w.2)) (by nlinarith [Real.neg_one_le_cos (Real.pi * w.2), Real.cos_le_one (Real.pi * w.2)])
      have g2 := hlp w.1 hw.1 (-Real.cos (Real.pi * w.2)) (by nlinarith [Real.neg_one_le_cos (Real.pi * w.2), Real.cos_le_one (Real.pi * w.2)])
      rw [mul_neg] at g2
      have g3 := hB _ x1 x2
      simp only [H, G, Real.norm_eq_abs]
      rw [abs_mul, abs_mul, abs_mul, abs_mul, abs_div, abs_of_pos Real.pi_pos, abs_of_pos (by norm_num : (0 : ℝ) < 3),
        abs_of_pos (by have := hr w.1; have := Real.pi_pos; positivity : 0 < L * (2 * Real.pi) * r w.1 ^ 3)]
      have g4 : |Real.sin (Real.pi * w.2)| ≤ 1 := Real.abs_sin_le_one _
      have g5 := abs_add_le (loopPart a (κ ^ 2) (r w.1 ^ 2) (κ * r w.1 * Real.cos (Real.pi * w.2)))
        (loopPart a (κ ^ 2) (r w.1 ^ 2) (-(κ * r w.1 * Real.cos (Real.pi * w.2))))
      have g6 := Real.pi_pos
      have g7 := (hr w.1).le
      have g8 := g5.trans (add_le_add g1 g2)
      have g9 : Real.pi * |Real.sin (Real.pi * w.2)| ≤ Real.pi := mul_le_of_le_one_right g6.le g4
      gcongr

/-- C65: for any spectrum, the one-loop correction to the propagator is the loop integral of the third-order kernel. -/
theorem C65_loop (a : Field) (P : ℝ → ℝ) (hP : Tame P) (k : E3) (hk : k ≠ 0) (qmin qmax : ℝ) (h0 : 0 < qmin) (h1 : qmin < qmax) :
    3 / (2 * Real.pi) ^ 3 * ∫ q in {q : E3 | qmin ≤ ‖q‖ ∧ ‖q‖ ≤ qmax}, sptSym3 a (toVec k) (toVec q) (-toVec q) * P ‖q‖
      = ‖k‖ ^ 3 / (2 * Real.pi ^ 2) * ∫ x in (qmin / ‖k‖)..(qmax / ‖k‖), propClosed a x * P (‖k‖ * x) := by
  have hκ : 0 < ‖k‖ := norm_pos_iff.2 hk
  let e : E3 := !₂[0, 0, ‖k‖]
  have he : ‖k‖ = ‖e‖ := by
    rw [EuclideanSpace.norm_eq e, Fin.sum_univ_three]
    simp [e]
  let R : E3 ≃ₗᵢ[ℝ] E3 := (ℝ ∙ (k - e))ᗮ.reflection
  have hR : R k = e := Submodule.reflection_sub he
  have hdot : ∀ p q : E3, (toVec p).dot (toVec q) = inner ℝ p q := fun p q => by
    rw [PiLp.inner_apply, Fin.sum_univ_three]
    simp only [Vec.dot, toVec, RCLike.inner_apply, conj_trivial]
    ring
  have hrot : ∀ p q : E3, inner ℝ (R p) (R q) = inner ℝ p q := fun p q => R.inner_map_map p q
  have hf : ∀ q ∈ {q : E3 | qmin ≤ ‖q‖ ∧ ‖q‖ ≤ qmax}, sptSym3 a (toVec k) (toVec q) (-toVec q) * P ‖q‖
      = sptSym3 a (toVec e) (toVec (R q)) (-toVec (R q)) * P ‖R q‖ := fun q hq => by
    have hq0 : 0 < ‖q‖ := h0.trans_le hq.1
    rw [sptSym3_loop, sptSym3_loop, R.norm_map]
    · simp only [hdot]
      rw [← hR, hrot, hrot, hrot]
    · rw [hdot, ← hR, hrot, real_inner_self_eq_norm_sq]; positivity
    · rw [hdot, hrot, real_inner_self_eq_norm_sq]; positivity
    · rw [hdot, real_inner_self_eq_norm_sq]; positivity
    · rw [hdot, real_inner_self_eq_norm_sq]; positivity
  have hm : MeasurableSet {q : E3 | qmin ≤ ‖q‖ ∧ ‖q‖ ≤ qmax} :=
    (measurableSet_le measurable_const measurable_norm).inter (measurableSet_le measurable_norm measurable_const)
  have hpre : R ⁻¹' {q : E3 | qmin ≤ ‖q‖ ∧ ‖q‖ ≤ qmax} = {q : E3 | qmin ≤ ‖q‖ ∧ ‖q‖ ≤ qmax} := by
    ext q
    simp only [Set.mem_preimage, Set.mem_ofPred_eq, R.norm_map]
  have hint := R.measurePreserving.setIntegral_preimage_emb R.toHomeomorph.measurableEmbedding
    (fun q => sptSym3 a (toVec e) (toVec q) (-toVec q) * P ‖q‖) {q : E3 | qmin ≤ ‖q‖ ∧ ‖q‖ ≤ qmax}
  rw [hpre] at hint
  have hte : toVec e = ⟨0, 0, ‖k‖⟩ := by simp [toVec, e]
  rw [setIntegral_congr_fun hm hf, hint, hte, loop_axis a P hP ‖k‖ qmin qmax hκ h0 h1]
  field_simp
  ring

/-- The kernel of `gamma1_1loop` for a field. -/
noncomputable def propKernel (a : Field) (x : ℝ) : ℝ :=
  match a with
  | .delta => kernelFF x
  | .theta => kernelGG x

theorem propKernel_closed (a : Field) (x : ℝ) (h1 : 0.01 ≤ |x - 1|) (h2 : x ≤ 10) : propKernel a x = x * propClosed a x := by
  cases a
  · exact C21_ff_middle x h1 h2
  · exact C21_gg_middle x h1 h2

/-- C65: the code's sum over nodes is the quadrature, per unit logarithm of the loop momentum, of `3 q³/(2π)²` times the angular
integral of the third-order kernel times the spectrum (nodes outside the ranges where the kernels are expanded, `C21`). -/
theorem C65_sum (a : Field) (g : GLQ ℝ) (hq : g.q.length = g.nq) (hpk : g.pk.length = g.nq) (hw : g.w.length = g.nq) (k : ℝ) (hk : 0 < k)
    (h : ∀ q ∈ g.q, 0 < q ∧ 0.01 ≤ |q / k - 1| ∧ q / k ≤ 10) :
    gamma1OneLoop a g k = .ok (∑ i ∈ Finset.range g.nq, g.w.getD i 0 * (3 * g.q.getD i 0 ^ 3 / (2 * Real.pi) ^ 2 *
      (∫ mu in (-1 : ℝ)..1, sptSym3 a ⟨0, 0, k⟩ ⟨g.q.getD i 0 * Real.sqrt (1 - mu ^ 2), 0, g.q.getD i 0 * mu⟩
        (-⟨g.q.getD i 0 * Real.sqrt (1 - mu ^ 2), 0, g.q.getD i 0 * mu⟩)) * g.pk.getD i 0)) := by
  unfold gamma1OneLoop gamma1Loop1
  rw [sumLoop_ok _ _ (fun i => propKernel a (g.q.getD i 0 / k) * g.pk.getD i 0 * g.w.getD i 0)]
  · rw [Res.ok_bind, Res.ok.injEq, Finset.sum_mul, Finset.sum_mul, Finset.sum_mul, Finset.sum_div]
    refine Finset.sum_congr rfl fun i hi => ?_
    have hm : g.q.getD i 0 ∈ g.q := by
      rw [List.getD_eq_getElem?_getD, List.getElem?_eq_getElem (by rw [hq]; exact Finset.mem_range.1 hi)]
      exact List.getElem_mem _
    obtain ⟨q0, q1, q2⟩ := h _ hm
    generalize g.q.getD i 0 = q at *
    have hne : q ≠ k := by
      rintro rfl
      rw [div_self hk.ne', sub_self, abs_zero] at q1
      norm_num at q1
    rw [propKernel_closed a _ q1 q2, ← C65_angle a k q hk q0 hne]
    field_simp
  · intro i hi
    have hi : i < g.nq := hi
    have e1 : rd (updateGLQ g k).x i = .ok (g.q.getD i 0 / k) := by
      rw [updateGLQ, rd_ok (by simp; omega)]
      simp [List.getD_eq_getElem?_getD, List.getElem?_eq_getElem (show i < g.q.length by omega)]
    have e2 : rd (updateGLQ g k).pk i = .ok (g.pk.getD i 0) := by
      rw [updateGLQ, rd_ok (show i < g.pk.length by omega)]
      simp [List.getD_eq_getElem?_getD, List.getElem?_eq_getElem (show i < g.pk.length by omega)]
    have e3 : rd (updateGLQ g k).w i = .ok (g.w.getD i 0) := by
      rw [updateGLQ, rd_ok (show i < g.w.length by omega)]
      simp [List.getD_eq_getElem?_getD, List.getElem?_eq_getElem (show i < g.w.length by omega)]
    rw [e1, e2, e3, Res.ok_bind, Res.ok_bind, Res.ok_bind]
    cases a <;> rfl

/-- C65 for every table: the loop integral, in the ratio of the loop momentum to the mode, with the closed kernels. -/
theorem C65_table (t : Pk ℝ) (ht : t.Physical) (h2 : 2 ≤ t.nk) (a : Field) (k : E3) (hk : k ≠ 0) (qmin qmax : ℝ) (h0 : 0 < qmin)
    (h1 : qmin < qmax) : ∃ P : ℝ → ℝ, (∀ x, look t .poly x = .ok (P x)) ∧
    3 / (2 * Real.pi) ^ 3 * ∫ q in {q : E3 | qmin ≤ ‖q‖ ∧ ‖q‖ ≤ qmax}, sptSym3 a (toVec k) (toVec q) (-toVec q) * P ‖q‖
      = ‖k‖ ^ 3 / (2 * Real.pi ^ 2) * ∫ x in (qmin / ‖k‖)..(qmax / ‖k‖), propClosed a x * P (‖k‖ * x) := by
  obtain ⟨P, hP, hT⟩ := tame_look t ht h2
  exact ⟨P, hP, C65_loop a P hT k hk qmin qmax h0 h1⟩

theorem F3_part (a : Field) (k q : Vec) (hq : q.dot q ≠ 0) (h1 : ¬ tiny (-q + k)) (h2 : ¬ tiny k) :
    F3 a q (-q) k = loopPart a (k.dot k) (q.dot q) (k.dot q) := by
  have e0 : q + (-q + k) = k := by
    rw [← Vec.add_assoc]
    show Vec.mk _ _ _ = k
    cases k
    simp
  have hY := dot_ne_zero_of_not_tiny h1
  have d1 : (-q + k).dot (-q + k) = k.dot k + q.dot q - 2 * k.dot q := by
    simp only [Vec.dot, Vec.add_x, Vec.add_y, Vec.add_z, Vec.neg_x, Vec.neg_y, Vec.neg_z]; ring
  have d2 : (-q + k).dot q = k.dot q - q.dot q := by
    simp only [Vec.dot, Vec.add_x, Vec.add_y, Vec.add_z, Vec.neg_x, Vec.neg_y, Vec.neg_z]; ring
  have d3 : (-q).dot k = -k.dot q := by simp only [Vec.dot, Vec.neg_x, Vec.neg_y, Vec.neg_z]; ring
  rw [F3_value a q (-q) k hq h1 (by rwa [e0])]
  unfold sptAlpha sptBeta F2Full loopPart
  rw [Vec.add_comm (-q + k) q, e0, Vec.neg_dot_neg, d1, d3, Vec.dot_comm q (-q + k), d2, Vec.dot_comm k (-q + k), Vec.add_dot, d3]
  rw [d1] at hY
  generalize k.dot k + q.dot q - 2 * k.dot q = Y at *
  cases a <;> simp only <;> ring

theorem not_tiny_of_dot (v : Vec) (h : 0.0001 ≤ v.dot v) : ¬ tiny v := by
  rintro ⟨h1, h2, h3⟩
  have he : (eps : ℝ) ≤ 0.001 := by norm_num [eps]
  have hs : ∀ y : ℝ, |y| < eps → y * y ≤ 0.000001 := fun y hy => by
    have := abs_lt.1 (hy.trans_le he)
    nlinarith [this.1, this.2]
  have := hs _ h1; have := hs _ h2; have := hs _ h3
  unfold Vec.dot at h
  norm_num at *
  linarith

/-- C65: the kernels of `src/gamma1_1loop.c` and the third-order kernel of `src/kernels.c` are consistent: the former are the angular
integral of the latter as it is coded. -/
theorem C65_code (a : Field) (x : ℝ) (hx : 0 < x) (h1 : 0.01 ≤ |x - 1|) (h2 : x ≤ 10) :
    propKernel a x = 3 / 2 * x ^ 3 * ∫ mu in (-1 : ℝ)..1,
      F3Sym a ⟨0, 0, 1⟩ ⟨x * Real.sqrt (1 - mu ^ 2), 0, x * mu⟩ (-⟨x * Real.sqrt (1 - mu ^ 2), 0, x * mu⟩) := by
  have hn1 : x ≠ 1 := by
    rintro rfl
    norm_num at h1
  have e : Set.EqOn (fun mu => F3Sym a ⟨0, 0, 1⟩ ⟨x * Real.sqrt (1 - mu ^ 2), 0, x * mu⟩ (-⟨x * Real.sqrt (1 - mu ^ 2), 0, x * mu⟩))
      (fun mu => (loopPart a 1 (x ^ 2) (x * mu) + loopPart a 1 (x ^ 2) (-(x * mu))) / 3) (Set.uIcc (-1) 1) := fun mu hmu => by
    rw [Set.uIcc_of_le (by norm_num)] at hmu
    have hs := Real.mul_self_sqrt (by nlinarith [hmu.1, hmu.2] : 0 ≤ 1 - mu ^ 2)
    beta_reduce
    generalize hqq : (⟨x * Real.sqrt (1 - mu ^ 2), 0, x * mu⟩ : Vec) = q
    generalize hkk : (⟨0, 0, 1⟩ : Vec) = k
    have d1 : k.dot k = 1 := by rw [← hkk]; norm_num [Vec.dot]
    have d2 : q.dot q = x ^ 2 := by
      rw [← hqq]
      simp only [Vec.dot]
      linear_combination x ^ 2 * hs
    have d3 : k.dot q = x * mu := by
      rw [← hqq, ← hkk]
      simp only [Vec.dot]
      ring
    have hsq : 0.0001 ≤ (x - 1) ^ 2 := by
      rw [← sq_abs]
      have := pow_le_pow_left₀ (by norm_num) h1 2
      norm_num at this ⊢
      exact this
    have t1 : ¬ tiny (-q + k) := not_tiny_of_dot _ (by
      have : (-q + k).dot (-q + k) = k.dot k + q.dot q - 2 * k.dot q := by
        simp only [Vec.dot, Vec.add_x, Vec.add_y, Vec.add_z, Vec.neg_x, Vec.neg_y, Vec.neg_z]; ring
      rw [this, d1, d2, d3]
      nlinarith [hmu.2])
    have t2 : ¬ tiny (- -q + k) := not_tiny_of_dot _ (by
      have : (- -q + k).dot (- -q + k) = k.dot k + q.dot q + 2 * k.dot q := by
        simp only [Vec.dot, Vec.add_x, Vec.add_y, Vec.add_z, Vec.neg_x, Vec.neg_y, Vec.neg_z]; ring
      rw [this, d1, d2, d3]
      nlinarith [hmu.1])
    have t3 : ¬ tiny k := not_tiny_of_dot _ (by rw [d1]; norm_num)
    have nn : - -q = q := by
      show Vec.mk _ _ _ = q
      cases q
      simp
    have d4 : k.dot (-q) = -(x * mu) := by
      rw [← d3]
      simp only [Vec.dot, Vec.neg_x, Vec.neg_y, Vec.neg_z]
      ring
    have f1 : F3 a k q (-q) = 0 := by
      refine if_pos (Or.inl ?_)
      have : q + -q = ⟨0, 0, 0⟩ := by
        show Vec.mk _ _ _ = _
        simp
      rw [this]
      norm_num [tiny, eps]
    have f2 : F3 a q (-q) k = loopPart a 1 (x ^ 2) (x * mu) := by
      rw [F3_part a k q (by rw [d2]; positivity) t1 t3, d1, d2, d3]
    have f3 : F3 a (-q) k q = loopPart a 1 (x ^ 2) (-(x * mu)) := by
      have := F3_part a k (-q) (by rw [Vec.neg_dot_neg, d2]; positivity) t2 t3
      rw [Vec.neg_dot_neg, d1, d2, d4, nn] at this
      rw [F3_swap, this]
    rw [F3Sym, f1, f2, f3]
    ring
  rw [intervalIntegral.integral_congr e, loopPart_two a x hx hn1, propKernel_closed a x h1 h2]
  field_simp

/-- The hypotheses are met at twice the mode; for the density the angular integral of the coded kernel is then a rational number plus a
multiple of `log 3`. -/
example : kernelFF 2 = 12 * ∫ mu in (-1 : ℝ)..1, F3Sym .delta ⟨0, 0, 1⟩ ⟨2 * Real.sqrt (1 - mu ^ 2), 0, 2 * mu⟩ (-⟨2 * Real.sqrt (1 - mu ^ 2), 0, 2 * mu⟩) := by
  have := C65_code .delta 2 (by norm_num) (by norm_num) (by norm_num)
  norm_num [propKernel] at this ⊢
  exact this

/-- A quadrature with two nodes, on either side of the mode. -/
example := C65_sum .theta ⟨2, 1, [1, 3], [1, 3], [1 / 2, 1 / 2], [5, 7]⟩ rfl rfl rfl 2 (by norm_num) (by norm_num [abs_of_neg, abs_of_pos])

/-- A table that is not a power law, and a range around the mode. -/
example := C65_table ⟨4, [1, 2, 3, 5], [1, 4, 2, 1]⟩ ⟨⟨⟨rfl, rfl, by norm_num⟩, by norm_num⟩, by norm_num⟩ (by norm_num) .delta
  (!₂[0, 3, 4] : E3) (fun h => by have := congrArg (fun v : E3 => v 1) h; norm_num at this) (1 / 2) 20 (by norm_num) (by norm_num)

end Verif
