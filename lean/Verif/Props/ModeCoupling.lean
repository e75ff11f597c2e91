import Verif.Props.LoopLimit

/-!
# C77 – the mode-coupling and bias terms on large scales
-/

namespace Verif

/-- The second-order kernels of two sides `r`, `q` of a triangle are at most of the order of the square of the third side. -/
theorem gamma2Tree_small (a : Field) {r q k : ℝ} (hr : 0 < r) (hq : 0 < q) (hk : 0 < k) (h1 : |q - r| ≤ k) (h2 : k ≤ q + r) :
    |gamma2Tree a r q k| ≤ 17 / 28 * k ^ 2 * (1 / q ^ 2 + 1 / r ^ 2) := by
  have e2 : (q ^ 2 - r ^ 2) ^ 2 ≤ k ^ 2 * (2 * (q ^ 2 + r ^ 2)) := by
    have : (q - r) ^ 2 ≤ k ^ 2 := sq_le_sq' (by linarith [neg_abs_le (q - r)]) ((le_abs_self _).trans h1)
    have h3 : (q + r) ^ 2 ≤ 2 * (q ^ 2 + r ^ 2) := by nlinarith [sq_nonneg (q - r)]
    calc (q ^ 2 - r ^ 2) ^ 2 = (q - r) ^ 2 * (q + r) ^ 2 := by ring
      _ ≤ _ := mul_le_mul this h3 (sq_nonneg _) (sq_nonneg _)
  have e4 : k ^ 2 * k ^ 2 ≤ k ^ 2 * (2 * (q ^ 2 + r ^ 2)) := by
    refine mul_le_mul_of_nonneg_left ?_ (sq_nonneg _)
    nlinarith [sq_nonneg (q - r), mul_pos (by linarith : 0 < q + r) hk]
  have e0 : 0 ≤ k ^ 2 * (q ^ 2 + r ^ 2) := by positivity
  have s0 := sq_nonneg (q ^ 2 - r ^ 2)
  have s1 : 0 ≤ k ^ 2 * k ^ 2 := by positivity
  have den : 0 < 28 * (q ^ 2 * r ^ 2) := by positivity
  rw [show 17 / 28 * k ^ 2 * (1 / q ^ 2 + 1 / r ^ 2) = (17 * (k ^ 2 * (q ^ 2 + r ^ 2))) / (28 * (q ^ 2 * r ^ 2)) by field_simp; ring]
  cases a
  · rw [show gamma2Tree .delta r q k = (-5 * (q ^ 2 - r ^ 2) ^ 2 + 3 * (k ^ 2 * (q ^ 2 + r ^ 2)) + 2 * (k ^ 2 * k ^ 2)) / (28 * (q ^ 2 * r ^ 2)) by
      simp only [gamma2Tree, F2Fast]; field_simp; ring, abs_div, abs_of_pos den]
    refine div_le_div_of_nonneg_right (abs_le.2 ⟨?_, ?_⟩) den.le <;> linarith
  · rw [show gamma2Tree .theta r q k = (-3 * (q ^ 2 - r ^ 2) ^ 2 - k ^ 2 * (q ^ 2 + r ^ 2) + 4 * (k ^ 2 * k ^ 2)) / (28 * (q ^ 2 * r ^ 2)) by
      simp only [gamma2Tree, F2Fast]; field_simp; ring, abs_div, abs_of_pos den]
    refine div_le_div_of_nonneg_right (abs_le.2 ⟨?_, ?_⟩) den.le <;> linarith

/-- The third side at an angle. -/
noncomputable def side (k q mu : ℝ) : ℝ := k * Real.sqrt (1 + q / k * (q / k) - 2 * mu * (q / k))

theorem side_sq {k q mu : ℝ} (hk : 0 < k) (m0 : -1 ≤ mu) (m1 : mu ≤ 1) : side k q mu ^ 2 = k ^ 2 + q ^ 2 - 2 * mu * k * q := by
  have h : 0 ≤ 1 + q / k * (q / k) - 2 * mu * (q / k) := by nlinarith [sq_nonneg (q / k - mu), sq_nonneg mu]
  unfold side
  rw [mul_pow, Real.sq_sqrt h]
  field_simp

theorem side_triangle {k q mu : ℝ} (hk : 0 < k) (hq : 0 < q) (m0 : -1 ≤ mu) (m1 : mu ≤ 1) :
    |q - side k q mu| ≤ k ∧ k ≤ q + side k q mu ∧ 0 ≤ side k q mu := by
  have e := side_sq (q := q) hk m0 m1
  have h0 : 0 ≤ side k q mu := mul_nonneg hk.le (Real.sqrt_nonneg _)
  have a1 : 0 ≤ (1 - mu) * (k * q) := mul_nonneg (by linarith) (by positivity)
  have a2 : 0 ≤ (1 + mu) * (k * q) := mul_nonneg (by linarith) (by positivity)
  have b1 : side k q mu ≤ k + q := abs_le_of_sq_le_sq' (by nlinarith) (by linarith) |>.2
  have b2 := sq_le_sq.1 (show (k - q) ^ 2 ≤ side k q mu ^ 2 by nlinarith)
  rw [abs_of_nonneg h0] at b2
  have b3 := abs_le.1 b2
  exact ⟨abs_le.2 ⟨by linarith, by linarith [b3.1]⟩, by linarith [b3.2], h0⟩

theorem gsum_le_of {n : ℕ} {rt : ℕ → ℝ × ℝ} (h : NearRoots n rt) {κ a b : ℝ} (hs : ∑ i ∈ Finset.range n, weightAt rt a b n i ≤ κ * (b - a))
    (hn : 1 ≤ n) (hab : a ≤ b) (f : ℝ → ℝ) (d : ℝ) (hd : ∀ t ∈ Set.Icc a b, |f t| ≤ d) : |gsum rt n a b f| ≤ κ * (b - a) * d := by
  have hd0 : 0 ≤ d := (abs_nonneg _).trans (hd _ (h.node_mem hab 0 (by omega)))
  refine le_trans ?_ (mul_le_mul_of_nonneg_right hs hd0)
  rw [Finset.sum_mul]
  unfold gsum
  refine (Finset.abs_sum_le_sum_abs _ _).trans (Finset.sum_le_sum fun i hi => ?_)
  have hi := Finset.mem_range.mp hi
  rw [abs_mul, abs_of_nonneg (h.weight_nonneg hab i hi)]
  exact mul_le_mul_of_nonneg_left (hd _ (h.node_mem hab i hi)) (h.weight_nonneg hab i hi)

/-- The weights of every rule add up to at most `κ` times the length of the interval. -/
def SumLe (κ : ℝ) (rt : ℕ → ℕ → ℝ × ℝ) : Prop :=
  ∀ n a b, 1 ≤ n → a ≤ b → ∑ i ∈ Finset.range n, weightAt (rt n) a b n i ≤ κ * (b - a)

theorem ExactRoots.sumLe {rt : ℕ → ℕ → ℝ × ℝ} (hr : ∀ n, ExactRoots n (rt n)) : SumLe 1 rt := fun n _ _ hn _ => by
  rw [(hr n).weight_sum hn, one_mul]

theorem NearRoots.sumLe {rt : ℕ → ℕ → ℝ × ℝ} (hr : ∀ n, NearRoots n (rt n)) : SumLe (11 / 9) rt := fun n _ _ hn hab =>
  (hr n).weight_sum_le hn hab

/-- A bound of the integrand gives a bound of the double rule. -/
theorem plane_le {rt : ℕ → ℕ → ℝ × ℝ} (hr : ∀ n, NearRoots n (rt n)) {κ : ℝ} (hs : SumLe κ rt) (hκ : 0 ≤ κ) (half : Bool) {qmin qmax k : ℝ} (hk : 0 < k) (h0 : 0 < qmin)
    (hq : qmin ≤ qmax) (D : ℝ → ℝ → ℝ → ℝ → ℝ) (P : ℝ → ℝ) (B : ℝ) (hB0 : 0 ≤ B)
    (hB : ∀ q mu, qmin ≤ q → q ≤ qmax → -1 ≤ mu → mu ≤ 1 → qmin ≤ side k q mu → side k q mu ≤ qmax → (half = true → q ≤ side k q mu) →
      q ^ 3 * |(if half then 2 else 1) * D (P q) (P (side k q mu)) (q / k) mu| ≤ B) (nq nm : ℕ) :
    |planeRule rt half qmin qmax k D P nq nm| ≤ κ ^ 2 * (B * Real.log (qmax / qmin) / (2 * Real.pi ^ 2)) := by
  have hlog : Real.log qmin ≤ Real.log qmax := Real.log_le_log h0 hq
  have hLd : Real.log (qmax / qmin) = Real.log qmax - Real.log qmin := Real.log_div (by linarith) h0.ne'
  have hL : 0 ≤ Real.log (qmax / qmin) := by rw [hLd]; linarith
  have hpi := Real.pi_pos
  rcases Nat.eq_zero_or_pos nq with rfl | hnq
  · simp only [planeRule, planeForm, gaussQ, gsum, Finset.range_zero, Finset.sum_empty, mul_zero, abs_zero]
    positivity
  rcases Nat.eq_zero_or_pos nm with rfl | hnm
  · have : ∀ r f, rangeForm (gsum (rt 0) 0) r f = 0 := by
      intro r f
      unfold rangeForm
      split <;> simp [gsum]
    simp only [planeRule, planeForm, gaussQ, this, mul_zero]
    simp only [gsum, mul_zero, Finset.sum_const_zero, abs_zero]
    positivity
  have hnode : ∀ i < nq, qmin ≤ Real.exp (nodeAt (rt nq) (Real.log qmin) (Real.log qmax) nq i) ∧
      Real.exp (nodeAt (rt nq) (Real.log qmin) (Real.log qmax) nq i) ≤ qmax := fun i hi => by
    have := (hr nq).node_mem hlog i hi
    refine ⟨?_, ?_⟩
    · calc qmin = Real.exp (Real.log qmin) := (Real.exp_log h0).symm
        _ ≤ _ := Real.exp_le_exp.2 this.1
    · calc _ ≤ Real.exp (Real.log qmax) := Real.exp_le_exp.2 this.2
        _ = qmax := Real.exp_log (by linarith)
  have hmono : ∀ i j, i ≤ j → j < nq → Real.exp (nodeAt (rt nq) (Real.log qmin) (Real.log qmax) nq i) ≤
      Real.exp (nodeAt (rt nq) (Real.log qmin) (Real.log qmax) nq j) := fun i j hij hj => by
    refine Real.exp_le_exp.2 ?_
    rcases hij.eq_or_lt with rfl | hlt
    · exact le_rfl
    · rw [nodeAt_ref _ _ _ _ i, nodeAt_ref _ _ _ _ j]
      have := (hr nq).asc i j hlt hj
      nlinarith
  unfold planeRule planeForm gaussQ
  set q0 := Real.exp (nodeAt (rt nq) (Real.log qmin) (Real.log qmax) nq 0) with hq0
  set q1 := Real.exp (nodeAt (rt nq) (Real.log qmin) (Real.log qmax) nq (nq - 1)) with hq1
  have key : |gsum (rt nq) nq (Real.log qmin) (Real.log qmax) fun t => (Real.exp t / k) ^ 3 *
      rangeForm (gsum (rt nm) nm) (muRange half [q0 / k, q1 / k] 2 (Real.exp t / k)) fun mu => (if half then 2 else 1) * D (P (Real.exp t))
        (P (k * Real.sqrt (1 + Real.exp t / k * (Real.exp t / k) - 2 * mu * (Real.exp t / k)))) (Real.exp t / k) mu| ≤
      ∑ i ∈ Finset.range nq, weightAt (rt nq) (Real.log qmin) (Real.log qmax) nq i * (κ * (2 * B / k ^ 3)) := by
    unfold gsum
    refine (Finset.abs_sum_le_sum_abs _ _).trans (Finset.sum_le_sum fun i hi => ?_)
    have hi := Finset.mem_range.1 hi
    rw [abs_mul, abs_of_nonneg ((hr nq).weight_nonneg hlog i hi)]
    refine mul_le_mul_of_nonneg_left ?_ ((hr nq).weight_nonneg hlog i hi)
    obtain ⟨n1, n2⟩ := hnode i hi
    have m1 := hmono 0 i (Nat.zero_le i) hi
    have m2 := hmono i (nq - 1) (by omega) (by omega)
    rw [← hq0] at m1
    rw [← hq1] at m2
    beta_reduce
    generalize Real.exp (nodeAt (rt nq) (Real.log qmin) (Real.log qmax) nq i) = q at n1 n2 m1 m2 ⊢
    have hq' : 0 < q := by linarith
    have hq0' : 0 < q0 := Real.exp_pos _
    have e0 := hnode 0 (by omega)
    have e1 := hnode (nq - 1) (by omega)
    rw [← hq0] at e0
    rw [← hq1] at e1
    have x0 : q0 / k ≤ q / k := by gcongr
    have x1 : q / k ≤ q1 / k := by gcongr
    have xp : 0 < q / k := by positivity
    rw [show (fun a b f => ∑ i ∈ Finset.range nm, weightAt (rt nm) a b nm i * f (nodeAt (rt nm) a b nm i)) = gsum (rt nm) nm from rfl,
      range_clip half (q0 / k) (q1 / k) (q / k) (by positivity) x0 x1 (gsum (rt nm) nm) _ (fun c => by
        rw [gsum_affine]
        simp [gsum])]
    have hlo : -1 ≤ loOf (q1 / k) (q / k) := le_max_left _ _
    have hhi : hiOf half (q0 / k) (q / k) ≤ 1 := by unfold hiOf; split <;> exact min_le_left _ _
    rw [abs_mul, abs_of_pos (by positivity : 0 < (q / k) ^ 3)]
    by_cases c : loOf (q1 / k) (q / k) < hiOf half (q0 / k) (q / k)
    · rw [max_eq_right c.le]
      have := gsum_le_of (hr nm) (hs nm _ _ hnm c.le) hnm c.le (fun mu => (if half then 2 else 1) * D (P q) (P (k * Real.sqrt (1 + q / k * (q / k) - 2 * mu * (q / k)))) (q / k) mu)
        (B / q ^ 3) (fun mu hmu => by
          rw [le_div_iff₀ (by positivity), mul_comm]
          have m0 : -1 ≤ mu := hlo.trans hmu.1
          have m1' : mu ≤ 1 := hmu.2.trans hhi
          have ln := (clip_len half (q0 / k) (q1 / k) (q / k) mu (by positivity) x0 x1 hmu.1 (by rw [max_eq_right c.le]; exact hmu.2)).2 c
          have es := side_sq (q := q) hk m0 m1'
          have hs := (side_triangle (q := q) hk hq' m0 m1').2.2
          have ek : k ^ 2 * (1 + q / k * (q / k) - 2 * mu * (q / k)) = side k q mu ^ 2 := by rw [es]; field_simp
          refine hB q mu n1 n2 m0 m1' ?_ ?_ fun hh => ?_
          · have : q0 ^ 2 ≤ side k q mu ^ 2 := by
              rw [← ek]
              calc q0 ^ 2 = k ^ 2 * (q0 / k) ^ 2 := by field_simp
                _ ≤ _ := by gcongr; exact ln.1
            exact e0.1.trans (abs_le_of_sq_le_sq' this hs).2
          · have : side k q mu ^ 2 ≤ q1 ^ 2 := by
              rw [← ek]
              calc _ ≤ k ^ 2 * (q1 / k) ^ 2 := by gcongr; exact ln.2
                _ = q1 ^ 2 := by field_simp
            exact (abs_le_of_sq_le_sq' this (by linarith)).2.trans e1.2
          · have hm : mu ≤ 1 / 2 / (q / k) := by
              have := hmu.2
              rw [hh] at this
              unfold hiOf at this
              simp only [if_true] at this
              exact this.trans (min_le_right _ _)
            rw [le_div_iff₀ xp] at hm
            have : q ^ 2 ≤ side k q mu ^ 2 := by
              rw [← ek]
              calc q ^ 2 = k ^ 2 * (q / k) ^ 2 := by field_simp
                _ ≤ _ := by gcongr; nlinarith
            exact (abs_le_of_sq_le_sq' this hs).2)
      calc (q / k) ^ 3 * _ ≤ (q / k) ^ 3 * (κ * (hiOf half (q0 / k) (q / k) - loOf (q1 / k) (q / k)) * (B / q ^ 3)) := by gcongr
        _ ≤ (q / k) ^ 3 * (κ * 2 * (B / q ^ 3)) := by gcongr; linarith
        _ = κ * (2 * B / k ^ 3) := by field_simp
    · rw [max_eq_left (not_lt.1 c)]
      have : ∀ f, gsum (rt nm) nm (loOf (q1 / k) (q / k)) (loOf (q1 / k) (q / k)) f = 0 := fun f => by
        rw [gsum_affine]
        simp [gsum]
      rw [this, abs_zero, mul_zero]
      positivity
  rw [← Finset.sum_mul] at key
  have key := key.trans (mul_le_mul_of_nonneg_right (hs nq _ _ hnq hlog) (by positivity))
  rw [← hLd] at key
  rw [abs_mul, abs_of_pos (by positivity : 0 < k ^ 3 / (4 * Real.pi ^ 2))]
  calc _ ≤ k ^ 3 / (4 * Real.pi ^ 2) * (κ * Real.log (qmax / qmin) * (κ * (2 * B / k ^ 3))) := by gcongr
    _ = _ := by field_simp; ring

/-! ## The kernels on a triangle -/

/-- Cosine of the angle between `q` and `k-q`, as the code forms it. -/
noncomputable def cosAt (k q r : ℝ) : ℝ := (k * k - r * r - q * q) / 2 / q / r

/-- Its square differs from 1 by the square of the ratio of `k` to the other side at most. -/
theorem cosAt_near {k q mu : ℝ} (hk : 0 < k) (hq : 0 < q) (m0 : -1 ≤ mu) (m1 : mu ≤ 1) (hr : 0 < side k q mu) :
    0 ≤ 1 - cosAt k q (side k q mu) ^ 2 ∧ 1 - cosAt k q (side k q mu) ^ 2 ≤ k ^ 2 / side k q mu ^ 2 := by
  have e := side_sq (q := q) hk m0 m1
  generalize side k q mu = r at e hr ⊢
  have : 1 - cosAt k q r ^ 2 = k ^ 2 / r ^ 2 * (1 - mu ^ 2) := by
    unfold cosAt
    rw [show k * k - r * r - q * q = 2 * q * (mu * k - q) by nlinarith, show 2 * q * (mu * k - q) / 2 / q / r = (mu * k - q) / r by field_simp,
      div_pow, eq_comm, div_mul_eq_mul_div, eq_sub_iff_add_eq, ← add_div, div_eq_one_iff_eq (by positivity), e]
    ring
  rw [this]
  have h1 : 0 ≤ 1 - mu ^ 2 := by nlinarith
  have h2 : 0 ≤ k ^ 2 / r ^ 2 := by positivity
  exact ⟨mul_nonneg h2 h1, by nlinarith [sq_nonneg mu]⟩

/-- The density of the tree term at a node. -/
theorem densTree_at (a b : Field) {k q mu p r : ℝ} (hk : 0 < k) :
    densTree a b k p r (q / k) mu = 2 * p * r * gamma2Tree a (side k q mu) q k * gamma2Tree b (side k q mu) q k := by
  unfold densTree side
  rw [mul_div_cancel₀ q hk.ne']

theorem densBias_at (kn : BiasKernel) (a : Field) {k q mu p r : ℝ} (hk : 0 < k) :
    densBias kn a k p r (q / k) mu = kn a q (side k q mu) mu (cosAt k q (side k q mu)) p r := by
  unfold densBias cosAt side
  rw [mul_div_cancel₀ q hk.ne']

/-- On the half plane. -/
theorem gamma2Tree_half (a : Field) {r q k : ℝ} (hq : 0 < q) (hk : 0 < k) (h1 : |q - r| ≤ k) (h2 : k ≤ q + r) (h : q ≤ r) :
    |gamma2Tree a r q k| ≤ 17 / 14 * k ^ 2 / q ^ 2 := by
  refine (gamma2Tree_small a (hq.trans_le h) hq hk h1 h2).trans ?_
  have : 1 / r ^ 2 ≤ 1 / q ^ 2 := by gcongr
  calc 17 / 28 * k ^ 2 * (1 / q ^ 2 + 1 / r ^ 2) ≤ 17 / 28 * k ^ 2 * (1 / q ^ 2 + 1 / q ^ 2) := by gcongr
    _ = _ := by ring

/-- C77, the second-order term of the double rule: at every wavenumber at most a constant times its fourth power. -/
theorem C77_rule_tree {rt : ℕ → ℕ → ℝ × ℝ} (hr : ∀ n, NearRoots n (rt n)) {κ : ℝ} (hs : SumLe κ rt) (hκ : 0 ≤ κ) (a b : Field) {qmin qmax k M : ℝ} (hk : 0 < k) (h0 : 0 < qmin)
    (hq : qmin ≤ qmax) (P : ℝ → ℝ) (hM : ∀ q, qmin ≤ q → q ≤ qmax → |P q| ≤ M) (nq nm : ℕ) :
    |planeRule rt true qmin qmax k (densTree a b k) P nq nm| ≤
      κ ^ 2 * (289 / 98 * M ^ 2 * Real.log (qmax / qmin) / (Real.pi ^ 2 * qmin) * k ^ 4) := by
  have M0 : 0 ≤ M := (abs_nonneg _).trans (hM qmin le_rfl hq)
  have := plane_le hr hs hκ true hk h0 hq (densTree a b k) P (289 / 49 * M ^ 2 * k ^ 4 / qmin) (by positivity)
    (fun q mu g0 g1 m0 m1 s0 s1 hh => by
      have hq' : 0 < q := by linarith
      obtain ⟨t1, t2, -⟩ := side_triangle hk hq' m0 m1
      have ha := gamma2Tree_half a hq' hk t1 t2 (hh rfl)
      have hb := gamma2Tree_half b hq' hk t1 t2 (hh rfl)
      have hp := hM q g0 g1
      have hp' := hM _ s0 s1
      rw [densTree_at a b hk]
      simp only [if_true, abs_mul, abs_two]
      calc q ^ 3 * (2 * (2 * |P q| * |P (side k q mu)| * |gamma2Tree a (side k q mu) q k| * |gamma2Tree b (side k q mu) q k|))
          ≤ q ^ 3 * (2 * (2 * M * M * (17 / 14 * k ^ 2 / q ^ 2) * (17 / 14 * k ^ 2 / q ^ 2))) := by gcongr
        _ = 289 / 49 * M ^ 2 * k ^ 4 / q := by field_simp; ring
        _ ≤ _ := by gcongr) nq nm
  refine this.trans (mul_le_mul_of_nonneg_left (le_of_eq ?_) (sq_nonneg κ))
  field_simp
  ring

/-- C77, the terms with one second-order kernel: the square of the wavenumber. -/
theorem C77_rule_bias {rt : ℕ → ℕ → ℝ × ℝ} (hr : ∀ n, NearRoots n (rt n)) {κ : ℝ} (hs : SumLe κ rt) (hκ : 0 ≤ κ) (b : BiasTerm) (hb : biasHalf b = true) (a : Field) {qmin qmax k M : ℝ}
    (hk : 0 < k) (h0 : 0 < qmin) (hq : qmin ≤ qmax) (P : ℝ → ℝ) (hM : ∀ q, qmin ≤ q → q ≤ qmax → |P q| ≤ M) (nq nm : ℕ) :
    |planeRule rt (biasHalf b) qmin qmax k (densBias (biasCode b) a k) P nq nm| ≤
      κ ^ 2 * (17 / 14 * M ^ 2 * qmax * Real.log (qmax / qmin) / Real.pi ^ 2 * k ^ 2) := by
  have M0 : 0 ≤ M := (abs_nonneg _).trans (hM qmin le_rfl hq)
  have := plane_le hr hs hκ (biasHalf b) hk h0 hq (densBias (biasCode b) a k) P (17 / 7 * M ^ 2 * qmax * k ^ 2)
    (mul_nonneg (mul_nonneg (by positivity) (by linarith)) (sq_nonneg _))
    (fun q mu g0 g1 m0 m1 s0 s1 hh => by
      have hq' : 0 < q := by linarith
      have hs : 0 < side k q mu := by linarith
      obtain ⟨t1, t2, -⟩ := side_triangle hk hq' m0 m1
      have ha := gamma2Tree_half a hq' hk t1 t2 (hh hb)
      obtain ⟨c1, c2⟩ := cosAt_near hk hq' m0 m1 hs
      have eF : F2Fast a (q * q) (side k q mu * side k q mu) (cosAt k q (side k q mu) * q * side k q mu) = gamma2Tree a (side k q mu) q k := by
        rw [C26_gamma2_tree]
        unfold gamma2Tree cosAt
        congr 1
        field_simp
        ring
      have hp := hM q g0 g1
      have hp' := hM _ s0 s1
      have key : |biasCode b a q (side k q mu) mu (cosAt k q (side k q mu)) (P q) (P (side k q mu))| ≤ M * M * (17 / 14 * k ^ 2 / q ^ 2) := by
        cases b <;> simp only [biasHalf, Bool.false_eq_true] at hb
        · simp only [biasCode, kernelB2, eF, abs_mul]
          gcongr
        · have hS : |S2 (cosAt k q (side k q mu))| ≤ 1 := by
            unfold S2
            rw [abs_le]
            constructor <;> nlinarith [sq_nonneg (cosAt k q (side k q mu))]
          simp only [biasCode, kernelBs2, eF, abs_mul]
          calc _ ≤ M * M * (17 / 14 * k ^ 2 / q ^ 2) * 1 := by gcongr
            _ = _ := mul_one _
      rw [densBias_at _ a hk, hb]
      simp only [if_true]
      rw [abs_mul, abs_two]
      calc q ^ 3 * (2 * _) ≤ q ^ 3 * (2 * (M * M * (17 / 14 * k ^ 2 / q ^ 2))) := by gcongr
        _ = 17 / 7 * M ^ 2 * q * k ^ 2 := by field_simp; ring
        _ ≤ _ := by gcongr) nq nm
  refine this.trans (mul_le_mul_of_nonneg_left (le_of_eq ?_) (sq_nonneg κ))
  field_simp
  ring

/-- C77, the three differences: small at small wavenumbers, whatever the numbers of nodes. -/
theorem C77_rule_difference {rt : ℕ → ℕ → ℝ × ℝ} (hr : ∀ n, NearRoots n (rt n)) (b : BiasTerm) (hb : b = .b22 ∨ b = .b2s2 ∨ b = .bs22) (a : Field)
    {qmin qmax : ℝ} (h0 : 0 < qmin) (hq : qmin ≤ qmax) (P : ℝ → ℝ) (hP : ContinuousOn P (Set.Icc qmin qmax)) {e : ℝ} (he : 0 < e) :
    ∃ d > 0, ∀ k, 0 < k → k < d → ∀ nq nm, |planeRule rt (biasHalf b) qmin qmax k (densBias (biasCode b) a k) P nq nm| ≤ e := by
  obtain ⟨M, hM⟩ := isCompact_Icc.exists_bound_of_continuousOn hP
  have M0 : 0 ≤ M := (norm_nonneg _).trans (hM qmin ⟨le_rfl, hq⟩)
  have hL : 0 ≤ Real.log (qmax / qmin) := Real.log_nonneg ((one_le_div h0).2 hq)
  have hq1 : 0 < qmax := by linarith
  set C := (11 / 9) ^ 2 * (qmax ^ 3 * M * Real.log (qmax / qmin) / (2 * Real.pi ^ 2)) with hC
  have C0 : 0 ≤ C := by positivity
  set τ := e / (C + 1) with hτ
  have τ0 : 0 < τ := by positivity
  have hCτ : C * τ ≤ e := by
    rw [hτ, mul_div_assoc', div_le_iff₀ (by positivity)]
    nlinarith
  obtain ⟨d1, hd1, hu⟩ := Metric.uniformContinuousOn_iff.1 (isCompact_Icc.uniformContinuousOn_of_continuous hP) τ τ0
  refine ⟨min d1 (min 1 (τ * qmin ^ 2 / (4 / 3 * M + 1))), by positivity, fun k hk hkd nq nm => ?_⟩
  have k1 := hkd.trans_le (min_le_left _ _)
  have k2 := (hkd.trans_le (min_le_right _ _)).trans_le (min_le_left _ _)
  have k3 := (hkd.trans_le (min_le_right _ _)).trans_le (min_le_right _ _)
  rw [lt_div_iff₀ (by positivity)] at k3
  have k4 : 4 / 3 * M * k ^ 2 ≤ τ * qmin ^ 2 := by nlinarith [mul_nonneg M0 hk.le]
  have hh : biasHalf b = false := by rcases hb with rfl | rfl | rfl <;> rfl
  have := plane_le hr (NearRoots.sumLe hr) (by norm_num) (biasHalf b) hk h0 hq (densBias (biasCode b) a k) P (qmax ^ 3 * (M * τ)) (by positivity)
    (fun q mu g0 g1 m0 m1 s0 s1 _ => by
      have hq' : 0 < q := by linarith
      have hs : 0 < side k q mu := by linarith
      obtain ⟨t1, t2, -⟩ := side_triangle hk hq' m0 m1
      obtain ⟨c1, c2⟩ := cosAt_near hk hq' m0 m1 hs
      have hp : |P q| ≤ M := hM q ⟨g0, g1⟩
      have hp' : |P (side k q mu)| ≤ M := hM _ ⟨s0, s1⟩
      have hd : |P q - P (side k q mu)| < τ := hu q ⟨g0, g1⟩ _ ⟨s0, s1⟩ (by rw [Real.dist_eq]; exact t1.trans_lt k1)
      have c3 : 4 / 3 * M * (1 - cosAt k q (side k q mu) ^ 2) ≤ τ := by
        calc 4 / 3 * M * (1 - cosAt k q (side k q mu) ^ 2) ≤ 4 / 3 * M * (k ^ 2 / side k q mu ^ 2) := by gcongr
          _ ≤ 4 / 3 * M * (k ^ 2 / qmin ^ 2) := by gcongr
          _ ≤ τ := by rw [← mul_div_assoc, div_le_iff₀ (by positivity)]; exact k4
      rw [densBias_at _ a hk, hh]
      simp only [Bool.false_eq_true, if_false, one_mul]
      generalize cosAt k q (side k q mu) = m at c1 c3 ⊢
      generalize P (side k q mu) = r at hp' hd ⊢
      generalize P q = p at hp hd ⊢
      have key : |biasCode b a q (side k q mu) mu m p r| ≤ M * τ := by
        have hmr : |r| * (1 - m ^ 2) ≤ M * (1 - m ^ 2) := by gcongr
        have hmM : 0 ≤ M * (1 - m ^ 2) := by positivity
        have half : ∀ z, |z| ≤ 2 * τ → |0.5 * p * z| ≤ M * τ := fun z hz => by
          rw [abs_mul, abs_mul, abs_of_pos (by norm_num : (0 : ℝ) < 0.5)]
          calc 0.5 * |p| * |z| ≤ 0.5 * M * (2 * τ) := by gcongr
            _ = _ := by ring
        rcases hb with rfl | rfl | rfl
        · simp only [biasCode, kernelB22]
          exact half _ (by rw [abs_sub_comm]; linarith)
        · simp only [biasCode, kernelB2s2, S2]
          rw [show -0.5 * p * (2 / 3 * p - r * (m * m - 1 / 3)) = 0.5 * p * -(2 / 3 * (p - r) + r * (1 - m ^ 2)) by ring]
          refine half _ ?_
          rw [abs_neg]
          refine (abs_add_le _ _).trans ?_
          rw [abs_mul, abs_mul, abs_of_nonneg c1, abs_of_pos (by norm_num : (0 : ℝ) < 2 / 3)]
          linarith
        · simp only [biasCode, kernelBs22, S2]
          rw [show -0.5 * p * (4 / 9 * p - r * (m * m - 1 / 3) * (m * m - 1 / 3)) =
            0.5 * p * -(4 / 9 * (p - r) + r * (1 - m ^ 2) * (1 / 3 + m ^ 2)) by ring]
          refine half _ ?_
          rw [abs_neg]
          refine (abs_add_le _ _).trans ?_
          have hm2 : |1 / 3 + m ^ 2| ≤ 4 / 3 := by rw [abs_of_nonneg (by positivity)]; linarith
          rw [abs_mul, abs_mul (r * _), abs_mul r, abs_of_nonneg c1, abs_of_pos (by norm_num : (0 : ℝ) < 4 / 9)]
          have : |r| * (1 - m ^ 2) * |1 / 3 + m ^ 2| ≤ M * (1 - m ^ 2) * (4 / 3) := by gcongr
          linarith
      calc q ^ 3 * _ ≤ qmax ^ 3 * (M * τ) := by gcongr) nq nm
  refine this.trans (le_trans (le_of_eq ?_) hCτ)
  rw [hC]
  ring

/-! ## The third-order term -/

theorem lo_end {k q q1 : ℝ} (hk : 0 < k) (hq : 0 < q) (hkq : k ≤ 2 * q) (h1 : q ≤ q1) (hg : q < q1 → k ≤ q1 - q) :
    |loOf (q1 / k) (q / k) ^ 3 - loOf (q1 / k) (q / k)| ≤ k / (2 * q) := by
  have e : (1 + q / k * (q / k) - q1 / k * (q1 / k)) / 2 / (q / k) = (k ^ 2 + q ^ 2 - q1 ^ 2) / (2 * q * k) := by field_simp
  unfold loOf
  rw [e]
  rcases h1.eq_or_lt with rfl | c
  · have : (k ^ 2 + q ^ 2 - q ^ 2) / (2 * q * k) = k / (2 * q) := by field_simp; ring
    have h0 : 0 ≤ k / (2 * q) := by positivity
    have h1 : k / (2 * q) ≤ 1 := by rw [div_le_one (by positivity)]; exact hkq
    rw [this, max_eq_right (by linarith)]
    rw [abs_le]
    constructor <;> nlinarith [mul_nonneg h0 h0, mul_nonneg (mul_nonneg h0 h0) h0, mul_nonneg h0 (mul_nonneg (sub_nonneg.2 h1) h0)]
  · rw [max_eq_left (by rw [div_le_iff₀ (by positivity)]; nlinarith [hg c])]
    norm_num
    positivity

theorem hi_end {k q q0 : ℝ} (hk : 0 < k) (hq0 : 0 < q0) (hkq : k ≤ 2 * q) (h1 : q0 ≤ q) (hg : q0 < q → k ≤ q - q0) :
    |hiOf false (q0 / k) (q / k) ^ 3 - hiOf false (q0 / k) (q / k)| ≤ k / (2 * q) := by
  have hq : 0 < q := by linarith
  have e : (1 + q / k * (q / k) - q0 / k * (q0 / k)) / 2 / (q / k) = (k ^ 2 + q ^ 2 - q0 ^ 2) / (2 * q * k) := by field_simp
  unfold hiOf
  rw [e]
  simp only [Bool.false_eq_true, if_false]
  rcases h1.eq_or_lt with rfl | c
  · have : (k ^ 2 + q0 ^ 2 - q0 ^ 2) / (2 * q0 * k) = k / (2 * q0) := by field_simp; ring
    have h0 : 0 ≤ k / (2 * q0) := by positivity
    have h1 : k / (2 * q0) ≤ 1 := by rw [div_le_one (by positivity)]; exact hkq
    rw [this, min_eq_right h1]
    rw [abs_le]
    constructor <;> nlinarith [mul_nonneg h0 h0, mul_nonneg (mul_nonneg h0 h0) h0, mul_nonneg h0 (mul_nonneg (sub_nonneg.2 h1) h0)]
  · rw [min_eq_left (by rw [le_div_iff₀ (by positivity)]; nlinarith [hg c])]
    norm_num
    positivity

open Polynomial in
/-- The angular rule with two nodes or more is exact for the squared cosine. -/
theorem gsum_square {n : ℕ} {rt : ℕ → ℝ × ℝ} (h : ExactRoots n rt) (hn : 2 ≤ n) (c a b : ℝ) :
    gsum rt n a b (fun mu => c * (mu ^ 2 - 1 / 3)) = c / 3 * ((b ^ 3 - b) - (a ^ 3 - a)) := by
  have := h.exact a b (C c * (X ^ 2 - C (1 / 3))) (by
    refine (degree_mul_le _ _).trans_lt ?_
    have h1 : (C c : ℝ[X]).degree ≤ 0 := degree_C_le
    have h2 : ((X : ℝ[X]) ^ 2 - C (1 / 3)).degree ≤ 2 := (degree_X_pow_sub_C (by norm_num) _).le
    calc _ ≤ (0 : WithBot ℕ) + 2 := add_le_add h1 h2
      _ < _ := by rw [zero_add]; exact_mod_cast (by omega : 2 < 2 * n))
  simp only [eval_mul, eval_C, eval_sub, eval_pow, eval_X] at this
  rw [this, intervalIntegral.integral_const_mul, intervalIntegral.integral_sub (by fun_prop |> fun h => Continuous.intervalIntegrable h _ _) (by simp), integral_pow]
  simp
  ring

/-- One radial node of the third-order term. -/
theorem sigma_node {n : ℕ} {rt : ℕ → ℝ × ℝ} (h : ExactRoots n rt) (hn : 2 ≤ n) (a : Field) {k q q0 q1 p M : ℝ} (hk : 0 < k) (h0 : 0 < q0)
    (g0 : q0 ≤ q) (g1 : q ≤ q1) (hkq : k ≤ 2 * q) (hg0 : q0 < q → k ≤ q - q0) (hg1 : q < q1 → k ≤ q1 - q) (hM : |p| ≤ M) (R : ℝ → ℝ) :
    |rangeForm (gsum rt n) (muRange false [q0 / k, q1 / k] 2 (q / k)) fun mu => densBias (biasCode .sigma3sq) a k p (R mu) (q / k) mu| ≤
      105 / 16 * M * (4 / 7 * (k ^ 2 / q0 ^ 2) + 2 / 21 * (k / q)) := by
  have hq : 0 < q := by linarith
  have M0 : 0 ≤ M := (abs_nonneg p).trans hM
  have x0 : q0 / k ≤ q / k := by gcongr
  have x1 : q / k ≤ q1 / k := by gcongr
  have hz : ∀ c f, gsum rt n c c f = 0 := fun c f => by
    unfold gsum
    refine Finset.sum_eq_zero fun i hi => ?_
    rw [weightAt_scale]
    simp
  rw [range_clip false (q0 / k) (q1 / k) (q / k) (by positivity) x0 x1 _ _ (fun c => hz c _)]
  have hlo : -1 ≤ loOf (q1 / k) (q / k) := le_max_left _ _
  have hhi : hiOf false (q0 / k) (q / k) ≤ 1 := by unfold hiOf; simp
  have Fl := lo_end hk hq hkq g1 hg1
  have Fh := hi_end hk h0 hkq g0 hg0
  have hpos : 0 ≤ 105 / 16 * M * (4 / 7 * (k ^ 2 / q0 ^ 2) + 2 / 21 * (k / q)) := by positivity
  by_cases c : loOf (q1 / k) (q / k) < hiOf false (q0 / k) (q / k)
  · rw [max_eq_right c.le]
    have ln := fun mu (m0 : loOf (q1 / k) (q / k) ≤ mu) (m1 : mu ≤ hiOf false (q0 / k) (q / k)) =>
      (clip_len false (q0 / k) (q1 / k) (q / k) mu (by positivity) x0 x1 m0 (by rw [max_eq_right c.le]; exact m1)).2 c
    generalize loOf (q1 / k) (q / k) = lo at c hlo Fl ln ⊢
    generalize hiOf false (q0 / k) (q / k) = hi at c hhi Fh ln ⊢
    have near := h.gsum_le (by omega) c.le (fun mu => densBias (biasCode .sigma3sq) a k p (R mu) (q / k) mu - 105 / 16 * p * (4 / 21) * (mu ^ 2 - 1 / 3))
      (105 / 16 * M * (2 / 7 * (k ^ 2 / q0 ^ 2))) (fun mu hmu => by
        have m0 : -1 ≤ mu := hlo.trans hmu.1
        have m1 : mu ≤ 1 := hmu.2.trans hhi
        have es := side_sq (q := q) hk m0 m1
        have hs := (side_triangle (q := q) hk hq m0 m1).2.2
        have ek : k ^ 2 * (1 + q / k * (q / k) - 2 * mu * (q / k)) = side k q mu ^ 2 := by rw [es]; field_simp
        have hsq : q0 ^ 2 ≤ side k q mu ^ 2 := by
          rw [← ek]
          calc q0 ^ 2 = k ^ 2 * (q0 / k) ^ 2 := by field_simp
            _ ≤ _ := by gcongr; exact (ln mu hmu.1 hmu.2).1
        have hs' : 0 < side k q mu := h0.trans_le (abs_le_of_sq_le_sq' hsq hs).2
        obtain ⟨c1, c2⟩ := cosAt_near hk hq m0 m1 hs'
        have c3 : k ^ 2 / side k q mu ^ 2 ≤ k ^ 2 / q0 ^ 2 := by gcongr
        rw [densBias_at _ a hk]
        simp only [biasCode, kernelSigma3sq, D2, S2]
        generalize cosAt k q (side k q mu) = m at c1 c2 ⊢
        rw [show 105 / 16 * p * (2 / 7 * (mu * mu - 1 / 3 - 2 / 3) * (m * m - 1 / 3) + 8 / 63) - 105 / 16 * p * (4 / 21) * (mu ^ 2 - 1 / 3) =
          105 / 16 * p * (2 / 7 * ((1 - mu ^ 2) * (1 - m ^ 2))) by ring, abs_mul, abs_mul, abs_of_pos (by norm_num : (0 : ℝ) < 105 / 16)]
        have hm : 0 ≤ 1 - mu ^ 2 := by nlinarith
        have hmm : (1 - mu ^ 2) * (1 - m ^ 2) ≤ 1 * (k ^ 2 / q0 ^ 2) := mul_le_mul (by nlinarith [sq_nonneg mu]) (c2.trans c3) c1 zero_le_one
        rw [abs_of_nonneg (show 0 ≤ 2 / 7 * ((1 - mu ^ 2) * (1 - m ^ 2)) by positivity)]
        gcongr
        linarith)
    rw [ExactRoots.gsum_sub, gsum_square h hn] at near
    have near' : |gsum rt n lo hi (fun mu => densBias (biasCode .sigma3sq) a k p (R mu) (q / k) mu) -
        105 / 16 * p * (4 / 21) / 3 * ((hi ^ 3 - hi) - (lo ^ 3 - lo))| ≤ 2 * (105 / 16 * M * (2 / 7 * (k ^ 2 / q0 ^ 2))) :=
      near.trans (by gcongr; linarith)
    have main : |105 / 16 * p * (4 / 21) / 3 * ((hi ^ 3 - hi) - (lo ^ 3 - lo))| ≤ 105 / 16 * M * (4 / 63) * (k / q) := by
      have h1 : |(hi ^ 3 - hi) - (lo ^ 3 - lo)| ≤ k / q := by
        refine (abs_sub _ _).trans ((add_le_add Fh Fl).trans (le_of_eq ?_))
        field_simp
        ring
      rw [abs_mul, show 105 / 16 * p * (4 / 21) / 3 = 105 / 16 * (4 / 63) * p by ring, abs_mul, abs_of_pos (by norm_num : (0 : ℝ) < 105 / 16 * (4 / 63))]
      calc 105 / 16 * (4 / 63) * |p| * _ ≤ 105 / 16 * (4 / 63) * M * (k / q) := by gcongr
        _ = _ := by ring
    have tri := abs_add_le (gsum rt n lo hi (fun mu => densBias (biasCode .sigma3sq) a k p (R mu) (q / k) mu) -
        105 / 16 * p * (4 / 21) / 3 * ((hi ^ 3 - hi) - (lo ^ 3 - lo))) (105 / 16 * p * (4 / 21) / 3 * ((hi ^ 3 - hi) - (lo ^ 3 - lo)))
    rw [sub_add_cancel] at tri
    have hkq0 : 0 ≤ M * (k / q) := by positivity
    calc _ ≤ _ := tri.trans (add_le_add near' main)
      _ ≤ _ := by nlinarith
  · rw [max_eq_left (not_lt.1 c), hz, abs_zero]
    exact hpos

/-- C77, the third-order term: for fixed numbers of nodes, at most proportional to small wavenumbers. -/
theorem C77_rule_sigma {rt : ℕ → ℕ → ℝ × ℝ} (hr : ∀ n, ExactRoots n (rt n)) (a : Field) {qmin qmax : ℝ} (h0 : 0 < qmin) (hq : qmin ≤ qmax)
    (P : ℝ → ℝ) (nq nm : ℕ) (hnm : 2 ≤ nm) :
    ∃ C, ∃ d > 0, ∀ k, 0 < k → k < d → |planeRule rt false qmin qmax k (densBias (biasCode .sigma3sq) a k) P nq nm| ≤ C * k := by
  have hlog : Real.log qmin ≤ Real.log qmax := Real.log_le_log h0 hq
  have hpi := Real.pi_pos
  set Q : ℕ → ℝ := fun i => Real.exp (nodeAt (rt nq) (Real.log qmin) (Real.log qmax) nq i) with hQ
  have Qpos : ∀ i, 0 < Q i := fun i => Real.exp_pos _
  have ev : ∀ i ∈ Finset.range nq, ∃ C, ∃ d > 0, ∀ k, 0 < k → k < d →
      |weightAt (rt nq) (Real.log qmin) (Real.log qmax) nq i * (Q i ^ 3 *
        rangeForm (gsum (rt nm) nm) (muRange false [Q 0 / k, Q (nq - 1) / k] 2 (Q i / k)) fun mu =>
          densBias (biasCode .sigma3sq) a k (P (Q i)) (P (k * Real.sqrt (1 + Q i / k * (Q i / k) - 2 * mu * (Q i / k)))) (Q i / k) mu)| ≤ C * k := by
    intro i hi
    have hi := Finset.mem_range.1 hi
    have b0 := (hr nq).near.between hlog hi
    have g0 : Q 0 ≤ Q i := Real.exp_le_exp.2 b0.1
    have g1 : Q i ≤ Q (nq - 1) := Real.exp_le_exp.2 b0.2
    refine ⟨|weightAt (rt nq) (Real.log qmin) (Real.log qmax) nq i| * (Q i ^ 3 * (105 / 16 * |P (Q i)| * (4 / 7 * (1 / Q 0 ^ 2) + 2 / 21 * (1 / Q i)))),
      min 1 (min (2 * Q i) (min (if Q 0 < Q i then Q i - Q 0 else 1) (if Q i < Q (nq - 1) then Q (nq - 1) - Q i else 1))), ?_, fun k hk hkd => ?_⟩
    · have := Qpos i
      refine lt_min zero_lt_one (lt_min (by positivity) (lt_min ?_ ?_)) <;> split <;> linarith
    · simp only [lt_min_iff] at hkd
      obtain ⟨k1, k2, k3, k4⟩ := hkd
      have hn := sigma_node (hr nm) hnm a hk (Qpos 0) g0 g1 k2.le (fun hc => by rw [if_pos hc] at k3; exact k3.le)
        (fun hc => by rw [if_pos hc] at k4; exact k4.le) (le_refl |P (Q i)|)
        (fun mu => P (k * Real.sqrt (1 + Q i / k * (Q i / k) - 2 * mu * (Q i / k))))
      have hkk : k ^ 2 ≤ k := by nlinarith
      rw [abs_mul, abs_mul, abs_of_pos (pow_pos (Qpos i) 3), mul_assoc, mul_assoc]
      gcongr
      refine hn.trans ?_
      have e1 : k ^ 2 / Q 0 ^ 2 ≤ k / Q 0 ^ 2 := by have := Qpos 0; gcongr
      calc _ ≤ 105 / 16 * |P (Q i)| * (4 / 7 * (k / Q 0 ^ 2) + 2 / 21 * (k / Q i)) := by gcongr
        _ = _ := by ring
  choose! C d hd hb using ev
  obtain ⟨D, hD, hDd⟩ : ∃ D > 0, ∀ i ∈ Finset.range nq, D ≤ d i := by
    rcases Finset.eq_empty_or_nonempty (Finset.range nq) with c | c
    · exact ⟨1, one_pos, by simp [c]⟩
    · exact ⟨(Finset.range nq).inf' c d, by rw [gt_iff_lt, Finset.lt_inf'_iff]; exact hd, fun i hi => Finset.inf'_le d hi⟩
  refine ⟨1 / (4 * Real.pi ^ 2) * ∑ i ∈ Finset.range nq, C i, D, hD, fun k hk hkD => ?_⟩
  have eq : planeRule rt false qmin qmax k (densBias (biasCode .sigma3sq) a k) P nq nm = 1 / (4 * Real.pi ^ 2) * ∑ i ∈ Finset.range nq,
      weightAt (rt nq) (Real.log qmin) (Real.log qmax) nq i * (Q i ^ 3 *
        rangeForm (gsum (rt nm) nm) (muRange false [Q 0 / k, Q (nq - 1) / k] 2 (Q i / k)) fun mu =>
          densBias (biasCode .sigma3sq) a k (P (Q i)) (P (k * Real.sqrt (1 + Q i / k * (Q i / k) - 2 * mu * (Q i / k)))) (Q i / k) mu) := by
    unfold planeRule planeForm gaussQ
    conv_lhs => unfold gsum
    simp only [Bool.false_eq_true, if_false, one_mul]
    rw [Finset.mul_sum, Finset.mul_sum]
    refine Finset.sum_congr rfl fun i _ => ?_
    rw [div_pow]
    simp only [hQ]
    have : k ^ 3 ≠ 0 := by positivity
    field_simp
    rfl
  rw [eq, abs_mul, abs_of_pos (by positivity : 0 < 1 / (4 * Real.pi ^ 2)), mul_assoc, Finset.sum_mul]
  gcongr
  exact (Finset.abs_sum_le_sum_abs _ _).trans (Finset.sum_le_sum fun i hi => hb i hi k hk (hkD.trans_le (hDd i hi)))

/-! ## The stored columns -/

theorem look_bound {t : Pk ℝ} {P : ℝ → ℝ} (hP : ∀ k, look t .poly k = .ok (P k)) {qmin qmax M : ℝ}
    (hM : ∀ q p, qmin ≤ q → q ≤ qmax → look t .poly q = .ok p → |p| ≤ M) (q : ℝ) (h0 : qmin ≤ q) (h1 : q ≤ qmax) : |P q| ≤ M :=
  hM q _ h0 h1 (hP q)

/-- C77, `Spectrum1Loop`: the column `pk_gamma2_tree_tree` is at most a constant times the fourth power of the wavenumber; the constant
depends on the linear spectrum and the range only. -/
theorem C77_one_loop {rt : ℕ → ℕ → ℝ × ℝ} {t : Pk ℝ} {qmin qmax : ℝ} (hc : LimitCase t rt qmin qmax) (a b : Field) {M : ℝ}
    (hM : ∀ q p, qmin ≤ q → q ≤ qmax → look t .poly q = .ok p → |p| ≤ M) {e : Env} {es : List Event} {μ ν : Mem} {ik : ℕ} {k : ℝ}
    (ht : e.t = t) (hrt : e.rt = rt) (he : e.DoubleRule .gamma2_tree_q .gamma2_tree_mu)
    (hrange : glqRange t (e.cfg.prec .gamma2_tree_q) = .ok (qmin, qmax)) (hμ : Room 6 e.ks.length μ) (hes : Schedule 3 e.ks.length es)
    (h : runTerms1 e a b es μ = .ok ν) (hik : e.ks[ik]? = some k) (hk : 0 < k) :
    ∃ v, ν.at (cellOf cls1 "pk_gamma2_tree_tree" ik) = some (some v) ∧
      |v| ≤ 867 / 196 * M ^ 2 * Real.log (qmax / qmin) / (Real.pi ^ 2 * qmin) * k ^ 4 := by
  subst ht hrt
  obtain ⟨hlt, rfl⟩ := List.getElem?_eq_some_iff.1 hik
  obtain ⟨g, gm, P, v, hg, hgm, hP, hcell, hvv, -⟩ := C66_one_loop he hμ hes h hlt hk
  refine ⟨v, hcell, ?_⟩
  rw [hvv, plane_run he hg hgm hrange]
  have hq := hc.pos
  have hL : 0 ≤ Real.log (qmax / qmin) := Real.log_nonneg ((one_le_div hq).2 hc.lt.le)
  refine (C77_rule_tree hc.roots (NearRoots.sumLe hc.roots) (by norm_num) a b hk hq hc.lt.le P (look_bound hP hM) _ _).trans ?_
  have : 0 ≤ M ^ 2 * Real.log (qmax / qmin) / (Real.pi ^ 2 * qmin) * e.ks[ik] ^ 4 := by positivity
  have e1 : ∀ c : ℝ, c * M ^ 2 * Real.log (qmax / qmin) / (Real.pi ^ 2 * qmin) * e.ks[ik] ^ 4 =
      c * (M ^ 2 * Real.log (qmax / qmin) / (Real.pi ^ 2 * qmin) * e.ks[ik] ^ 4) := fun c => by ring
  rw [e1, e1]
  linarith

/-- C77, `Bias1Loop`: the columns `pk_b2d`, `pk_bs2d`, `pk_b2t` and `pk_bs2t`. -/
theorem C77_bias {rt : ℕ → ℕ → ℝ × ℝ} {t : Pk ℝ} {qmin qmax : ℝ} (hc : LimitCase t rt qmin qmax) {M : ℝ}
    (hM : ∀ q p, qmin ≤ q → q ≤ qmax → look t .poly q = .ok p → |p| ≤ M) {e : Env} {es : List Event} {μ ν : Mem} {ik : ℕ} {k : ℝ}
    (ht : e.t = t) (hrt : e.rt = rt) (he : e.DoubleRule .bias_1loop_q .bias_1loop_mu)
    (hrange : glqRange t (e.cfg.prec .bias_1loop_q) = .ok (qmin, qmax)) (hμ : Room 11 e.ks.length μ) (hes : Schedule 8 e.ks.length es)
    (h : runTermsBias e es μ = .ok ν) (hik : e.ks[ik]? = some k) (hk : 0 < k) :
    ∀ c ∈ ["pk_b2d", "pk_bs2d", "pk_b2t", "pk_bs2t"], ∃ v, ν.at (cellOf clsBias c ik) = some (some v) ∧
      |v| ≤ 51 / 28 * M ^ 2 * qmax * Real.log (qmax / qmin) / Real.pi ^ 2 * k ^ 2 := by
  subst ht hrt
  obtain ⟨hlt, rfl⟩ := List.getElem?_eq_some_iff.1 hik
  obtain ⟨g, gm, P, hg, hgm, hP, hcols⟩ := C66_run_bias he hμ hes h hlt hk
  have key : ∀ c : Fin 8, biasHalf (biasTermOf c) = true → ∃ v, ν.at (cellOf clsBias (biasCol c).1 ik) = some (some v) ∧
      |v| ≤ 51 / 28 * M ^ 2 * qmax * Real.log (qmax / qmin) / Real.pi ^ 2 * e.ks[ik] ^ 2 := fun c hb => by
    obtain ⟨v, hcell, hvv, -⟩ := hcols c
    refine ⟨v, hcell, ?_⟩
    rw [hvv, plane_run he hg hgm hrange]
    have hq := hc.pos
    have hq1 : 0 < qmax := hq.trans hc.lt
    have hL : 0 ≤ Real.log (qmax / qmin) := Real.log_nonneg ((one_le_div hq).2 hc.lt.le)
    refine (C77_rule_bias hc.roots (NearRoots.sumLe hc.roots) (by norm_num) _ hb _ hk hq hc.lt.le P (look_bound hP hM) _ _).trans ?_
    have : 0 ≤ M ^ 2 * qmax * Real.log (qmax / qmin) / Real.pi ^ 2 * e.ks[ik] ^ 2 := by positivity
    have e1 : ∀ c : ℝ, c * M ^ 2 * qmax * Real.log (qmax / qmin) / Real.pi ^ 2 * e.ks[ik] ^ 2 =
        c * (M ^ 2 * qmax * Real.log (qmax / qmin) / Real.pi ^ 2 * e.ks[ik] ^ 2) := fun c => by ring
    rw [e1, e1]
    linarith
  intro c hc'
  simp only [List.mem_cons, List.not_mem_nil, or_false] at hc'
  rcases hc' with rfl | rfl | rfl | rfl
  · exact key 0 rfl
  · exact key 1 rfl
  · exact key 2 rfl
  · exact key 3 rfl

/-- C77, `Bias1Loop`: the columns `pk_b22`, `pk_b2s2` and `pk_bs22` are as small as wanted below a wavenumber that depends on the linear
spectrum and the range only. -/
theorem C77_bias_difference {rt : ℕ → ℕ → ℝ × ℝ} {t : Pk ℝ} {qmin qmax : ℝ} (hc : LimitCase t rt qmin qmax) {ε : ℝ} (hε : 0 < ε) :
    ∃ d > 0, ∀ (e : Env) (es : List Event) (μ ν : Mem) (ik : ℕ) (k : ℝ), e.t = t → e.rt = rt → e.DoubleRule .bias_1loop_q .bias_1loop_mu →
      glqRange t (e.cfg.prec .bias_1loop_q) = .ok (qmin, qmax) → Room 11 e.ks.length μ → Schedule 8 e.ks.length es →
      runTermsBias e es μ = .ok ν → e.ks[ik]? = some k → 0 < k → k < d →
      ∀ c ∈ ["pk_b22", "pk_b2s2", "pk_bs22"], ∃ v, ν.at (cellOf clsBias c ik) = some (some v) ∧ |v| ≤ ε := by
  obtain ⟨P, hP, -⟩ := tame_look t hc.phys hc.two
  obtain ⟨d1, p1, h1⟩ := C77_rule_difference hc.roots .b22 (by simp) .delta hc.pos hc.lt.le P (hc.cts hP) hε
  obtain ⟨d2, p2, h2⟩ := C77_rule_difference hc.roots .b2s2 (by simp) .delta hc.pos hc.lt.le P (hc.cts hP) hε
  obtain ⟨d3, p3, h3⟩ := C77_rule_difference hc.roots .bs22 (by simp) .delta hc.pos hc.lt.le P (hc.cts hP) hε
  refine ⟨min d1 (min d2 d3), by positivity, ?_⟩
  rintro e es μ ν ik k rfl rfl he hrange hμ hes h hik hk hkd
  simp only [lt_min_iff] at hkd
  obtain ⟨hlt, rfl⟩ := List.getElem?_eq_some_iff.1 hik
  obtain ⟨g, gm, P', hg, hgm, hP', hcols⟩ := C66_run_bias he hμ hes h hlt hk
  have : P' = P := funext fun x => by have := (hP' x).symm.trans (hP x); rwa [Res.ok.injEq] at this
  subst this
  have key : ∀ c : Fin 8, (∀ nq nm, |planeRule e.rt (biasHalf (biasTermOf c)) qmin qmax e.ks[ik]
      (densBias (biasCode (biasTermOf c)) (biasFieldOf c) e.ks[ik]) P' nq nm| ≤ ε) →
      ∃ v, ν.at (cellOf clsBias (biasCol c).1 ik) = some (some v) ∧ |v| ≤ ε := fun c hb => by
    obtain ⟨v, hcell, hvv, -⟩ := hcols c
    refine ⟨v, hcell, ?_⟩
    rw [hvv, plane_run he hg hgm hrange]
    exact hb _ _
  intro c hc'
  simp only [List.mem_cons, List.not_mem_nil, or_false] at hc'
  rcases hc' with rfl | rfl | rfl
  · exact key 4 (h1 _ hk hkd.1)
  · exact key 5 (h2 _ hk hkd.2.1)
  · exact key 6 (h3 _ hk hkd.2.2)

/-- C77, `Bias1Loop`: the column `sigma3sq`, for given numbers of nodes and exact roots, is at most proportional to small wavenumbers. -/
theorem C77_sigma3sq {rt : ℕ → ℕ → ℝ × ℝ} {t : Pk ℝ} {qmin qmax : ℝ} (hc : LimitCase t rt qmin qmax) (hr : ∀ n, ExactRoots n (rt n)) (nq nm : ℕ) (hnm : 2 ≤ nm) :
    ∃ C, ∃ d > 0, ∀ (e : Env) (es : List Event) (μ ν : Mem) (ik : ℕ) (k : ℝ), e.t = t → e.rt = rt → e.DoubleRule .bias_1loop_q .bias_1loop_mu →
      glqRange t (e.cfg.prec .bias_1loop_q) = .ok (qmin, qmax) → (e.cfg.prec .bias_1loop_q).n = nq → (e.cfg.prec .bias_1loop_mu).n = nm →
      Room 11 e.ks.length μ → Schedule 8 e.ks.length es → runTermsBias e es μ = .ok ν → e.ks[ik]? = some k → 0 < k → k < d →
      ∃ v, ν.at (cellOf clsBias "sigma3sq" ik) = some (some v) ∧ |v| ≤ C * k := by
  obtain ⟨P, hP, -⟩ := tame_look t hc.phys hc.two
  obtain ⟨C, d, hd, hb⟩ := C77_rule_sigma hr .delta hc.pos hc.lt.le P nq nm hnm
  refine ⟨C, d, hd, ?_⟩
  rintro e es μ ν ik k rfl rfl he hrange rfl rfl hμ hes h hik hk hkd
  obtain ⟨hlt, rfl⟩ := List.getElem?_eq_some_iff.1 hik
  obtain ⟨g, gm, P', hg, hgm, hP', hcols⟩ := C66_run_bias he hμ hes h hlt hk
  have : P' = P := funext fun x => by have := (hP' x).symm.trans (hP x); rwa [Res.ok.injEq] at this
  subst this
  obtain ⟨v, hcell, hvv, -⟩ := hcols 7
  refine ⟨v, hcell, ?_⟩
  rw [hvv, plane_run he hg hgm hrange]
  exact hb _ hk hkd

/-- C77: the loop integral itself obeys the bound. -/
theorem C77_integral {rt : ℕ → ℕ → ℝ × ℝ} {t : Pk ℝ} {qmin qmax : ℝ} (hc : LimitCase t rt qmin qmax) (a b : Field) {M : ℝ} {P : ℝ → ℝ}
    (hP : ∀ k, look t .poly k = .ok (P k)) (hM : ∀ q, qmin ≤ q → q ≤ qmax → |P q| ≤ M) (k : E3) (hk : k ≠ 0) :
    |1 / (2 * Real.pi) ^ 3 * ∫ q in bothIn k qmin qmax, specTree P a b (toVec k) (toVec q)| ≤
      289 / 98 * M ^ 2 * Real.log (qmax / qmin) / (Real.pi ^ 2 * qmin) * ‖k‖ ^ 4 := by
  have hκ := norm_pos_iff.2 hk
  obtain ⟨P', hP', hT⟩ := tame_look t hc.phys hc.two
  have : P' = P := funext fun x => by have := (hP' x).symm.trans (hP x); rwa [Res.ok.injEq] at this
  subst this
  rw [← C66_tree P' hT a b k hk qmin qmax hc.pos hc.lt]
  choose ex hex using exactRoots_exist
  refine le_of_tendsto (planeRule_tendsto (fun n => (hex n).near) true hκ hc.pos hc.lt.le _ P' (hc.cts hP) (densTree_continuousOn a b _ hκ)).abs ?_
  refine Filter.Eventually.of_forall fun n => ?_
  have := C77_rule_tree (fun n => (hex n).near) (ExactRoots.sumLe hex) zero_le_one a b hκ hc.pos hc.lt.le P' hM n.1 n.2
  rwa [one_pow, one_mul] at this

/-! ## Concrete cases -/

/-- A triangle with sides 3, 4 and 5. -/
example : |gamma2Tree .theta 4 5 3| ≤ 17 / 28 * 3 ^ 2 * (1 / 5 ^ 2 + 1 / 4 ^ 2) :=
  gamma2Tree_small .theta (by norm_num) (by norm_num) (by norm_num) (by norm_num [abs_le]) (by norm_num)

/-- The terms are there: the kernel does not vanish on that triangle. -/
example : gamma2Tree .delta 4 5 3 ≠ 0 := by norm_num [gamma2Tree, F2Fast]

/-- A rule with exact roots and a bounded spectrum. -/
example : ∃ rt : ℕ → ℕ → ℝ × ℝ, |planeRule rt true 1 8 (1 / 10) (densTree .delta .theta (1 / 10)) Real.cos 200 10| ≤
    289 / 98 * 1 ^ 2 * Real.log (8 / 1) / (Real.pi ^ 2 * 1) * (1 / 10) ^ 4 := by
  choose rt hr using exactRoots_exist
  have := C77_rule_tree (fun n => (hr n).near) (ExactRoots.sumLe hr) zero_le_one .delta .theta (k := 1 / 10) (qmin := 1) (qmax := 8) (by norm_num)
    (by norm_num) (by norm_num) _ (fun q _ _ => Real.abs_cos_le_one q) 200 10
  rw [show ((1 : ℝ) ^ 2 * (289 / 98 * 1 ^ 2 * Real.log (8 / 1) / (Real.pi ^ 2 * 1) * (1 / 10) ^ 4)) =
    289 / 98 * 1 ^ 2 * Real.log (8 / 1) / (Real.pi ^ 2 * 1) * (1 / 10) ^ 4 by ring] at this
  exact ⟨rt, this⟩

theorem limit_bound {rt : ℕ → ℕ → ℝ × ℝ} {t : Pk ℝ} {qmin qmax : ℝ} (hc : LimitCase t rt qmin qmax) :
    ∃ M, ∀ q p, qmin ≤ q → q ≤ qmax → look t .poly q = .ok p → |p| ≤ M := by
  obtain ⟨P, hP, -⟩ := tame_look t hc.phys hc.two
  obtain ⟨M, hM⟩ := isCompact_Icc.exists_bound_of_continuousOn (hc.cts hP)
  refine ⟨M, fun q p h0 h1 h => ?_⟩
  rw [hP, Res.ok.injEq] at h
  subst h
  exact hM q ⟨h0, h1⟩

/-- With default settings, the second-order column of the mode 1/2. -/
example : ∃ (rt : ℕ → ℕ → ℝ × ℝ) (ν : Mem) (M v : ℝ),
    runTerms1 ⟨Cfg.default, rt, wideTable, exKs⟩ .delta .theta (blocks 3 0 0 [2, 0, 3]) exMem = .ok ν ∧
    ν.at (cellOf cls1 "pk_gamma2_tree_tree" 0) = some (some v) ∧
    |v| ≤ 867 / 196 * M ^ 2 * Real.log (10 / (1 / 2000)) / (Real.pi ^ 2 * (1 / 2000)) * (1 / 2) ^ 4 := by
  choose rt hf using found_exist
  have hr := fun n => (hf n).nearRoots
  have hrt : ∀ n, n < 2 ^ 63 → RootsOrdered (rt n) n := fun n hn => nearRoots_ordered (hr n) hn
  have hok : (⟨Cfg.default, rt, wideTable, exKs⟩ : Env).Ok := ⟨wide_physical.toWF, by norm_num [wideTable], (exEnv_ok rt exKs).size,
    (exEnv_ok rt exKs).poly, (exEnv_ok rt exKs).interp⟩
  obtain ⟨ν, h⟩ := C59_one_loop hok .delta .theta (exSchedule 3) (exRoom 6)
  obtain ⟨M, hM⟩ := limit_bound (wideLimit hr)
  have hd : (⟨Cfg.default, rt, wideTable, exKs⟩ : Env).DoubleRule .gamma2_tree_q .gamma2_tree_mu := ⟨wide_physical, hok.two,
    by norm_num [RangeProper, Cfg.default, defaultPrec], by norm_num [Cfg.default, defaultPrec], hok.size _, hok.size _, hrt _ (hok.size _),
    hrt _ (hok.size _), hok.poly _, hok.poly _⟩
  obtain ⟨v, h1, h2⟩ := C77_one_loop (e := ⟨Cfg.default, rt, wideTable, exKs⟩) (ik := 0) (k := 1 / 2) (wideLimit hr) .delta .theta hM rfl rfl hd
    (by norm_num [glqRange, Cfg.default, defaultPrec, lit_real, le_real]) (exRoom 6) (exSchedule 3) h (by simp [exKs]) (by norm_num)
  exact ⟨rt, ν, M, v, h, h1, h2⟩

/-- The loop integral of the mode 8 over the range of the example table. -/
example : ∃ (P : ℝ → ℝ) (M : ℝ), |1 / (2 * Real.pi) ^ 3 * ∫ q in bothIn exVec 1 8, specTree P .delta .delta (toVec exVec) (toVec q)| ≤
    289 / 98 * M ^ 2 * Real.log (8 / 1) / (Real.pi ^ 2 * 1) * 8 ^ 4 := by
  choose rt hf using found_exist
  have hr := fun n => (hf n).nearRoots
  obtain ⟨P, hP, -⟩ := tame_look exTable (exLimit hr).phys (exLimit hr).two
  obtain ⟨M, hM⟩ := limit_bound (exLimit hr)
  have := C77_integral (exLimit hr) .delta .delta hP (look_bound hP hM) exVec (norm_pos_iff.1 (by rw [exVec_norm]; norm_num))
  rw [exVec_norm] at this
  exact ⟨P, M, this⟩

theorem exEnv_bias {rt : ℕ → ℕ → ℝ × ℝ} (hr : ∀ n, NearRoots n (rt n)) (ks : List ℝ) :
    (exEnv rt ks).DoubleRule .bias_1loop_q .bias_1loop_mu ∧ glqRange exTable ((exEnv rt ks).cfg.prec .bias_1loop_q) = .ok (1, 8) :=
  ⟨⟨exTable_physical, (exEnv_ok rt ks).two, by norm_num [RangeProper, exEnv, Cfg.default, defaultPrec], by norm_num [exEnv, Cfg.default, defaultPrec],
      (exEnv_ok rt ks).size _, (exEnv_ok rt ks).size _, nearRoots_ordered (hr _) ((exEnv_ok rt ks).size _),
      nearRoots_ordered (hr _) ((exEnv_ok rt ks).size _), (exEnv_ok rt ks).poly _, (exEnv_ok rt ks).poly _⟩,
    by simp [exEnv, glqRange, Cfg.default, defaultPrec, lit_real, le_real, exTable, rd, subSize, sizeMod]⟩

/-- The bias columns of the mode 1/2. -/
example : ∃ (rt : ℕ → ℕ → ℝ × ℝ) (ν : Mem) (M v : ℝ), runTermsBias (exEnv rt exKs) (blocks 8 0 0 [2, 0, 3]) exMem = .ok ν ∧
    ν.at (cellOf clsBias "pk_bs2t" 0) = some (some v) ∧ |v| ≤ 51 / 28 * M ^ 2 * 8 * Real.log (8 / 1) / Real.pi ^ 2 * (1 / 2) ^ 2 := by
  choose rt hf using found_exist
  have hr := fun n => (hf n).nearRoots
  obtain ⟨ν, h⟩ := C59_bias (exEnv_ok rt exKs) (exSchedule 8) (exRoom 11)
  obtain ⟨M, hM⟩ := limit_bound (exLimit hr)
  obtain ⟨v, h1, h2⟩ := C77_bias (e := exEnv rt exKs) (ik := 0) (k := 1 / 2) (exLimit hr) hM rfl rfl (exEnv_bias hr _).1 (exEnv_bias hr exKs).2 (exRoom 11)
    (exSchedule 8) h (by simp [exEnv, exKs]) (by norm_num) "pk_bs2t" (by simp)
  exact ⟨rt, ν, M, v, h, h1, h2⟩

/-- A mode at which the differences are below 1/1000. -/
example : ∃ (rt : ℕ → ℕ → ℝ × ℝ) (ν : Mem) (k v : ℝ), runTermsBias (exEnv rt [k, 2, 2, 8, 9]) (blocks 8 0 0 [2, 0, 3]) exMem = .ok ν ∧
    0 < k ∧ ν.at (cellOf clsBias "pk_b2s2" 0) = some (some v) ∧ |v| ≤ 1 / 1000 := by
  choose rt hf using found_exist
  have hr := fun n => (hf n).nearRoots
  obtain ⟨d, hd, hb⟩ := C77_bias_difference (exLimit hr) (ε := 1 / 1000) (by norm_num)
  obtain ⟨ν, h⟩ := C59_bias (exEnv_ok rt [d / 2, 2, 2, 8, 9]) (exSchedule 8) (exRoom 11)
  obtain ⟨v, h1, h2⟩ := hb (exEnv rt [d / 2, 2, 2, 8, 9]) _ _ ν 0 (d / 2) rfl rfl (exEnv_bias hr _).1 (exEnv_bias hr [d / 2, 2, 2, 8, 9]).2
    (exRoom 11) (exSchedule 8) h (by simp [exEnv]) (by linarith) (by linarith) "pk_b2s2" (by simp)
  exact ⟨rt, ν, d / 2, v, h, by linarith, h1, h2⟩

/-- The third-order term with the default numbers of nodes. -/
example : ∃ (rt : ℕ → ℕ → ℝ × ℝ) (ν : Mem) (C k v : ℝ), runTermsBias (exEnv rt [k, 2, 2, 8, 9]) (blocks 8 0 0 [2, 0, 3]) exMem = .ok ν ∧
    0 < k ∧ ν.at (cellOf clsBias "sigma3sq" 0) = some (some v) ∧ |v| ≤ C * k := by
  choose rt hr using exactRoots_exist
  obtain ⟨C, d, hd, hb⟩ := C77_sigma3sq (exLimit fun n => (hr n).near) hr 2000 20 (by norm_num)
  obtain ⟨ν, h⟩ := C59_bias (exEnv_ok rt [d / 2, 2, 2, 8, 9]) (exSchedule 8) (exRoom 11)
  obtain ⟨v, h1, h2⟩ := hb (exEnv rt [d / 2, 2, 2, 8, 9]) _ _ ν 0 (d / 2) rfl rfl (exEnv_bias (fun n => (hr n).near) _).1 (exEnv_bias (fun n => (hr n).near) [d / 2, 2, 2, 8, 9]).2
    (by norm_num [exEnv, Cfg.default, defaultPrec]) (by norm_num [exEnv, Cfg.default, defaultPrec])
    (exRoom 11) (exSchedule 8) h (by simp [exEnv]) (by linarith) (by linarith)
  exact ⟨rt, ν, C, d / 2, v, h, by linarith, h1, h2⟩

end Verif
